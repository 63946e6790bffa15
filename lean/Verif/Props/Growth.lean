import Verif.Props.Sessions
/- Property C48: the number of pending messages. -/
namespace Siwe
open Spec

/-- The canister stores this many sign-in messages. -/
def Spec.storedMessages {E : Env} (s : State E) : Nat := s.lib.messages.length

/-! ### what holds -/

theorem messages_step {E : Env} {st : State E} (hi : Inv st) (now : UInt64) (op : Op) :
    storedMessages (step st now op).1 ≤ storedMessages st ∨
    (∃ a n t, Event.Issues ⟨now, op, (step st now op).2⟩ a n t) ∧ storedMessages (step st now op).1 ≤ storedMessages st + 1 := by
  have h := step_case hi now op
  generalize (step st now op).1 = st' at h ⊢
  generalize (step st now op).2 = r at h ⊢
  unfold storedMessages
  have hp : ∀ m : SiweMessageMap, (m.pruneExpired now).length ≤ m.length := fun m => List.length_filter_le _ _
  have he : ∀ (m : SiweMessageMap) k, (m.erase k).length ≤ m.length := fun m k => List.length_filter_le _ _
  cases h with
  | installed => left; simp
  | upgraded => left; simp
  | prepared addr bs g s txt =>
    right
    refine ⟨⟨addr, _, txt, rfl, rfl⟩, ?_⟩
    simp only [preparedLib, List.length_cons]
    have := he st.lib.messages (E.sha256 (pendingKey bs (nonceOf E g)))
    omega
  | notFound => left; exact hp _
  | found sig addr key nonce bs m txt st'' r' h1 h2 h3 h4 h5 h6 h7 hf =>
    left
    cases hf <;> exact Nat.le_trans (he _ _) (hp _)
  | _ => exact .inl (Nat.le_refl _)

/-- C48, partial: there are never more stored messages than `siwe_prepare_login` calls that issued one since the last
installation or upgrade.  Missing: a bound that does not depend on the number of calls (see `C48_no_bound`). -/
theorem C48_at_most_issued_partial (E : Env) (h h2 : History) (now : UInt64) (i : SettingsInput) (op : Op)
    (hop : op = .install i ∨ op = .upgrade i) (hd : (step (stateAfter E h) now op).2 = .done) :
    storedMessages (stateAfter E (h ++ (now, op) :: h2)) ≤
      (traceFrom (stateAfter E (h ++ [(now, op)])) h2).countP fun e => match e.reply with | .prepared _ => true | _ => false := by
  have e1 : stateAfter E (h ++ (now, op) :: h2) = (run (stateAfter E (h ++ [(now, op)])) h2).1 := by
    rw [show h ++ (now, op) :: h2 = (h ++ [(now, op)]) ++ h2 by simp]
    exact run_append _ _ _
  rw [e1]
  have h0 : storedMessages (stateAfter E (h ++ [(now, op)])) = 0 := by
    have e2 : stateAfter E (h ++ [(now, op)]) = (step (stateAfter E h) now op).1 := run_snoc _ _ _ _
    rw [e2]
    have hc := step_case (inv_stateAfter E h) now op
    rw [hd] at hc
    generalize (step (stateAfter E h) now op).1 = st' at hc ⊢
    rcases hop with rfl | rfl <;> cases hc <;> rfl
  have hi := inv_stateAfter E (h ++ [(now, op)])
  clear e1
  generalize stateAfter E (h ++ [(now, op)]) = st at h0 hi ⊢
  induction h2 using history_induction with
  | nil => simp [run, h0]
  | snoc h2 t op' ih =>
    rw [run_snoc, traceFrom_snoc, List.countP_append, List.countP_singleton]
    rcases messages_step (inv_run hi h2) t op' with hle | ⟨⟨a, n, tx, _, hr⟩, hle⟩
    · exact Nat.le_trans hle (Nat.le_trans ih (Nat.le_add_right _ _))
    · have hr : (step (run st h2).1 t op').2 = .prepared ⟨tx, n⟩ := hr
      simp only [hr, if_true]
      omega

/-- C48, partial: no call other than `siwe_prepare_login` stores more messages, and that one stores at most one more. -/
theorem C48_growth_partial (E : Env) (h : History) (now : UInt64) (op : Op) :
    storedMessages (step (stateAfter E h) now op).1 ≤ storedMessages (stateAfter E h) + 1 ∧
    ((∀ a, op ≠ .prepareLogin a) → storedMessages (step (stateAfter E h) now op).1 ≤ storedMessages (stateAfter E h)) := by
  rcases messages_step (inv_stateAfter E h) now op with hle | ⟨⟨a, n, tx, hc, _⟩, hle⟩
  · exact ⟨by omega, fun _ => hle⟩
  · exact ⟨hle, fun hno => absurd hc (hno a)⟩

/-- C48, partial: after a `siwe_login` with a well-formed address and signature, whatever it answers, no expired message is
left. -/
theorem C48_login_clears_partial (E : Env) (h : History) (now : UInt64) (sig addr key nonce : Bytes)
    (ha : IsAddress E.keccak addr) (hs : HexString 130 sig) :
    ∀ x ∈ (step (stateAfter E h) now (.login sig addr key nonce)).1.lib.messages, now.toNat < x.2.expirationTime.toNat := by
  have hc := step_case (inv_stateAfter E h) now (.login sig addr key nonce)
  generalize (step (stateAfter E h) now (.login sig addr key nonce)).1 = st' at hc ⊢
  generalize (step (stateAfter E h) now (.login sig addr key nonce)).2 = r at hc
  have hp : ∀ m : SiweMessageMap, ∀ x ∈ m.pruneExpired now, now.toNat < x.2.expirationTime.toNat := by
    intro m x hx
    have := (List.mem_filter.mp hx).2
    exact UInt64.lt_iff_toNat_lt.mp (of_decide_eq_true this)
  cases hc with
  | badAddress _ _ _ _ _ g => exact absurd ha g
  | badSignature _ _ _ _ _ _ g => exact absurd hs g
  | notFound => exact hp _
  | found _ _ _ _ bs m txt _ _ h1 h2 h3 h4 h5 h6 h7 hf =>
    cases hf <;> exact fun x hx => hp _ x (List.mem_filter.mp hx).1

/-! ### what does not hold -/

/-- The ten bytes of a counter, least significant first. -/
def counterBytes : Nat → Nat → Bytes
  | 0, _ => []
  | k + 1, n => UInt8.ofNat n :: counterBytes k (n / 256)

theorem counterBytes_length (k n : Nat) : (counterBytes k n).length = k := by
  induction k generalizing n with
  | zero => rfl
  | succ k ih => simp [counterBytes, ih]

theorem counterBytes_inj (k n m : Nat) (hn : n < 256 ^ k) (hm : m < 256 ^ k) (h : counterBytes k n = counterBytes k m) : n = m := by
  induction k generalizing n m with
  | zero => simp at hn hm; omega
  | succ k ih =>
    simp only [counterBytes, List.cons.injEq] at h
    have h1 := congrArg UInt8.toNat h.1
    simp only [UInt8.toNat_ofNat'] at h1
    have := ih (n / 256) (m / 256) (by rw [Nat.div_lt_iff_lt_mul (by decide)]; rwa [Nat.pow_succ] at hn)
      (by rw [Nat.div_lt_iff_lt_mul (by decide)]; rwa [Nat.pow_succ] at hm) h.2
    omega

/-- The toy parameters with a random generator that never repeats within its 2^80 outputs. -/
def Toy.counting : Env :=
  { Toy.env with Rng := Nat, rngFromSeed := fun _ => 0, rngFill10 := fun n => (⟨counterBytes 10 n, counterBytes_length _ _⟩, n + 1) }

/-- Installation, seeding and `n` prepared logins for the same address. -/
def Ex.many (n : Nat) : History :=
  [(1, .install Ex.input), (2, .rngSeeded [1])] ++ List.replicate n ((5, .prepareLogin Ex.alice) : UInt64 × Op)

/-- The bytes of the example's first address. -/
def Ex.aliceBytes : Bytes := List.replicate 20 0x11

theorem Toy.fit_digest (y x : Bytes) (hl : x.length = 20) :
    ∃ a b c t, fit 32 (Toy.digest (y ++ x)) = a :: b :: c :: (x.reverse ++ t) := by
  unfold Toy.digest
  generalize UInt8.ofNat ((y ++ x).foldl (fun a c => 31 * a + c.toNat) 7) = a
  generalize UInt8.ofNat ((y ++ x).foldl (fun a c => 7 * a + c.toNat) 3 / 256) = b
  generalize UInt8.ofNat (y ++ x).length = c
  refine ⟨a, b, c, (y.reverse ++ List.replicate 32 0).take 9, ?_⟩
  rw [List.reverse_append]
  have hl : x.reverse.length = 20 := (List.length_reverse).trans hl
  generalize x.reverse = x at hl ⊢
  generalize y.reverse = y
  simp only [fit, List.cons_append, List.take_succ_cons, List.append_assoc]
  rw [List.take_append, hl, List.take_of_length_le (by omega)]

theorem Toy.storeKey_inj (n m : Nat) (hn : n < 256 ^ 10) (hm : m < 256 ^ 10)
    (h : storeKey Toy.counting Ex.aliceBytes (nonceOf Toy.counting n) = storeKey Toy.counting Ex.aliceBytes (nonceOf Toy.counting m)) :
    n = m := by
  have h : (storeKey Toy.counting Ex.aliceBytes (nonceOf Toy.counting n)).bytes =
    (storeKey Toy.counting Ex.aliceBytes (nonceOf Toy.counting m)).bytes := congrArg Hash.bytes h
  have shape : ∀ k : Nat, ∃ a b c t, (storeKey Toy.counting Ex.aliceBytes (nonceOf Toy.counting k)).bytes =
      a :: b :: c :: ((nonceOf Toy.counting k).reverse ++ t) := by
    intro k
    have hl : (nonceOf Toy.counting k).reverse.length = 20 := (List.length_reverse).trans (nonceOf_length Toy.counting k)
    exact Toy.fit_digest _ _ (by rw [← List.length_reverse]; exact hl)
  obtain ⟨a, b, c, t, e1⟩ := shape n
  obtain ⟨a', b', c', t', e2⟩ := shape m
  rw [e1, e2] at h
  simp only [List.cons.injEq] at h
  have := (List.append_inj h.2.2.2 (by
    rw [List.length_reverse, List.length_reverse]
    exact (nonceOf_length Toy.counting n).trans (nonceOf_length Toy.counting m).symm)).1
  exact counterBytes_inj 10 n m hn hm (hexEncode_inj (List.reverse_injective this))

theorem Ex.many_state (n : Nat) (hn : n ≤ 256 ^ 10) :
    (stateAfter Toy.counting (Ex.many n)).lib.rng = some n ∧
    (∃ s, (stateAfter Toy.counting (Ex.many n)).lib.settings = some s ∧ s.signInExpiresIn = 300000000000) ∧
    storedMessages (stateAfter Toy.counting (Ex.many n)) = n ∧
    ∀ x ∈ (stateAfter Toy.counting (Ex.many n)).lib.messages, x.2.expirationTime = 300000000005 ∧
      ∃ m < n, x.1 = storeKey Toy.counting Ex.aliceBytes (nonceOf Toy.counting m) := by
  induction n with
  | zero =>
    refine ⟨rfl, ?_, by decide +kernel, fun x hx => by simp [show (stateAfter Toy.counting (Ex.many 0)).lib.messages = [] from rfl] at hx⟩
    have : (stateAfter Toy.counting (Ex.many 0)).lib.settings =
      some (SettingsBuilder.new (ascii "a.com") (ascii "http://a.com") (ascii "s")) := by decide +kernel
    exact ⟨_, this, by decide⟩
  | succ n ih =>
    obtain ⟨i1, ⟨s, i2, i2'⟩, i3, i4⟩ := ih (by omega)
    have e : Ex.many (n + 1) = Ex.many n ++ [(5, .prepareLogin Ex.alice)] := by
      simp [Ex.many, List.replicate_succ']
    have e2 : stateAfter Toy.counting (Ex.many (n + 1)) =
        (step (stateAfter Toy.counting (Ex.many n)) 5 (.prepareLogin Ex.alice)).1 := by rw [e]; exact run_snoc _ _ _ _
    have hi := inv_stateAfter Toy.counting (Ex.many n)
    rw [e2]
    generalize stateAfter Toy.counting (Ex.many n) = st at *
    have hc := step_case hi 5 (.prepareLogin Ex.alice)
    generalize (step st 5 (.prepareLogin Ex.alice)).1 = st' at hc ⊢
    generalize (step st 5 (.prepareLogin Ex.alice)).2 = r at hc
    cases hc with
    | badPrepare _ _ g => exact absurd (Ex.aliceOk _) g
    | notReady _ _ g => rw [i1, i2] at g; rcases g with g | g <;> cases g
    | prepared _ bs g s' txt h1 h2 h3 h4 h5 h6 h7 =>
      rw [i1] at h4; cases h4
      rw [i2] at h5; cases h5
      have hb : bs = Ex.aliceBytes := spells_unique h3 ((hexDecode_ok_iff _ _).mp (by decide +kernel))
      subst hb
      have hkeep : SiweMessageMap.erase st.lib.messages (storeKey Toy.counting Ex.aliceBytes (nonceOf Toy.counting n)) =
          st.lib.messages := by
        apply List.filter_eq_self.mpr
        intro x hx
        obtain ⟨_, m, hm, e⟩ := i4 x hx
        simp only [decide_eq_true_eq, ne_eq, e]
        intro h
        have := Toy.storeKey_inj m n (by omega) (by omega) h
        omega
      refine ⟨rfl, ⟨s, i2, i2'⟩, ?_, ?_⟩
      · show (_ :: SiweMessageMap.erase st.lib.messages (storeKey Toy.counting Ex.aliceBytes (nonceOf Toy.counting n))).length = _
        rw [hkeep, List.length_cons]
        exact congrArg (· + 1) i3
      · intro x hx
        have hx : x ∈ (storeKey Toy.counting Ex.aliceBytes (nonceOf Toy.counting n),
            SiweMessage.new s 5 ⟨Ex.alice⟩ (nonceOf Toy.counting n)) ::
            SiweMessageMap.erase st.lib.messages (storeKey Toy.counting Ex.aliceBytes (nonceOf Toy.counting n)) := hx
        rw [hkeep] at hx
        rcases List.mem_cons.mp hx with rfl | hx
        · refine ⟨?_, n, by omega, rfl⟩
          simp only [SiweMessage.new, i2']
          decide
        · obtain ⟨e, m, hm, e'⟩ := i4 x hx
          exact ⟨e, m, by omega, e'⟩

/-- C48 is false of the code: there are parameters (a generator that does not repeat) under which, for every number `n` of
the 2^80 nonces, `n` calls of `siwe_prepare_login` leave `n` stored messages; they are still stored at a time when every
one of them has expired, and one more call removes none of them. -/
theorem C48_no_bound : ∃ E : Env, ∀ n < 2 ^ 80, ∃ h : History,
    storedMessages (stateAfter E h) = n ∧
    (∀ x ∈ (stateAfter E h).lib.messages, x.2.expirationTime.toNat ≤ 10 ^ 18) ∧
    ∃ r, (step (stateAfter E h) (10 ^ 18) (.prepareLogin Ex.alice)).2 = .prepared r ∧
      ∀ x ∈ (stateAfter E h).lib.messages, x ∈ (step (stateAfter E h) (10 ^ 18) (.prepareLogin Ex.alice)).1.lib.messages := by
  refine ⟨Toy.counting, fun n hn => ⟨Ex.many n, ?_⟩⟩
  have hn' : n < 256 ^ 10 := hn
  obtain ⟨i1, ⟨s, i2, i2'⟩, i3, i4⟩ := Ex.many_state n (by omega)
  refine ⟨i3, fun x hx => by rw [(i4 x hx).1]; decide, ?_⟩
  have hi := inv_stateAfter Toy.counting (Ex.many n)
  generalize stateAfter Toy.counting (Ex.many n) = st at *
  have hc := step_case hi (10 ^ 18) (.prepareLogin Ex.alice)
  generalize (step st (10 ^ 18) (.prepareLogin Ex.alice)).1 = st' at hc ⊢
  generalize (step st (10 ^ 18) (.prepareLogin Ex.alice)).2 = r at hc ⊢
  cases hc with
  | badPrepare _ _ g => exact absurd (Ex.aliceOk _) g
  | notReady _ _ g => rw [i1, i2] at g; rcases g with g | g <;> cases g
  | prepared _ bs g s' txt h1 h2 h3 h4 h5 h6 h7 =>
    rw [i1] at h4; cases h4
    have hb : bs = Ex.aliceBytes := spells_unique h3 ((hexDecode_ok_iff _ _).mp (by decide +kernel))
    subst hb
    refine ⟨_, rfl, fun x hx => ?_⟩
    refine List.mem_cons_of_mem _ (List.mem_filter.mpr ⟨hx, ?_⟩)
    obtain ⟨_, m, hm, e⟩ := i4 x hx
    simp only [decide_eq_true_eq, ne_eq, e]
    intro h
    have := Toy.storeKey_inj m n (by omega) (by omega) h
    omega

/-- Non-vacuity of the partial theorems: two messages stored, one login later only one of them, and none when both have
expired. -/
example : (step (stateAfter Toy.env []) 1 (.install Ex.input)).2 = .done ∧ storedMessages (stateAfter Toy.env Ex.prepared) = 2 ∧
    storedMessages (stateAfter Toy.env Ex.loggedIn) = 1 ∧
    storedMessages (stateAfter Toy.env (Ex.prepared ++ [(1000000000000000000, .login Ex.aliceSig Ex.alice Ex.key (Ex.nonce 3))])) = 0 := by
  decide +kernel

end Siwe
