import Verif.Spec.OneAddress
import Verif.Props.App
/- C133: a principal belongs to one address, whatever happens to the configuration. -/
namespace Siwe
open Spec

/-- The key of a login's identity, under the configuration in force. -/
theorem login_under {E : Env} {h : History} {e : Event} (he : e ∈ trace E h) {addr key nonce : Bytes} {ld : LoginDetails}
    (hl : e.LogsIn addr key nonce ld) : ∃ i, LogsInUnder (trace E h) i addr ld ∧ IsAddress E.keccak addr ∧ ld.userCanisterPubkey = keyOf E i addr ∧
      ∃ x ∈ trace E h, (x.call = .install i ∨ x.call = .upgrade i) ∧ x.reply = .done := by
  obtain ⟨b, a, ht⟩ := List.append_of_mem he
  obtain ⟨h1, h2, e1, e2, e3, e4⟩ := traceFrom_split ht
  have hl' := hl
  obtain ⟨⟨sig, c1⟩, c2⟩ := hl
  rw [c1, c2] at e3
  obtain ⟨ha, _, _, _, _, _, _, _, s, _, _, _, _, _, _, g5, _, _, _, _, _, _, _, g11⟩ := login_success (h := h1) e3.symm
  obtain ⟨b', e', a', j, q1, q2, q3, q4, q5⟩ := g5
  have hb : b = b' ++ e' :: a' := (show b = trace E h1 from e2).trans q1
  refine ⟨j, ⟨b, e, a, key, nonce, ht, ⟨b', e', a', hb, q2, q3, q4⟩, hl'⟩, ha, g11.trans ?_, e', by rw [ht, hb]; simp, q3, q4⟩
  have := seed_identityOf q5 addr
  unfold userKey at this
  rw [this]

/-- C133: two logins at one canister, under whatever configurations (with salts of at most 255 bytes, see C23), that return keys of the same principal are
logins of the same address; or their identities exhibit a hash collision. -/
theorem C133_one_address (E : Env) (h : History) (hs : ShortSalts (trace E h)) (e e' : Event) (he : e ∈ trace E h) (he' : e' ∈ trace E h)
    (a k n a' k' n' : Bytes) (d d' : LoginDetails) (hl : e.LogsIn a k n d) (hl' : e'.LogsIn a' k' n' d')
    (hp : principalOfKey E d.userCanisterPubkey = principalOfKey E d'.userCanisterPubkey) : a = a' ∨ CollideAcross E (trace E h) := by
  obtain ⟨i, u1, h1, h2, x, hx, hxc, hxr⟩ := login_under he hl
  obtain ⟨i', u2, h3, h4, x', hx', hxc', hxr'⟩ := login_under he' hl'
  by_cases hi : identityOf i a = identityOf i' a'
  · have l1 := address_length h1
    have l2 := address_length h3
    exact .inl (identityString_inj (hs x hx i hxc hxr) (hs x' hx' i' hxc' hxr') (by omega) (by omega) hi).2.1
  refine .inr ⟨i, i', a, a', d, d', u1, u2, ?_⟩
  rw [h2, h4, principalOfKey, principalOfKey] at hp
  have hp := (List.append_inj' hp rfl).1
  by_cases hk : keyOf E i a = keyOf E i' a'
  · left
    refine ⟨hi, ?_⟩
    have hk' := congrArg readCanisterKey hk
    unfold keyOf at hk'
    rw [C25_key_reads_back E.canisterId _ E.canisterId_len (Hash.len _),
      C25_key_reads_back E.canisterId _ E.canisterId_len (Hash.len _)] at hk'
    exact Hash.ext' (Prod.mk.inj (Option.some.inj hk')).2
  · right
    refine ⟨hk, ?_⟩
    cases h1' : E.sha224 (keyOf E i a)
    cases h2' : E.sha224 (keyOf E i' a')
    rw [h1', h2'] at hp
    cases hp
    rfl

/-- The login that an answer of `get_address` stems from. -/
theorem address_login {E : Env} {h : History} {now : UInt64} {p a : Bytes} (hr : (step (stateAfter E h) now (.getAddress p)).2 = .bytes a) :
    ∃ e ∈ trace E h, ∃ key nonce d, e.LogsIn a key nonce d ∧ principalOfKey E d.userCanisterPubkey = p := by
  have hx := C72_get_address E h now p
  rw [hr] at hx
  cases hx with
  | found _ _ hf =>
    obtain ⟨b, e, key, nonce, d, ⟨af, g1, ⟨_, a', key', nonce', d', g2, g3⟩, _⟩, g4⟩ := hf
    refine ⟨e, by rw [g1]; simp, key, nonce, d, g4, ?_⟩
    obtain ⟨⟨_, c1⟩, c2⟩ := g2
    obtain ⟨⟨_, c3⟩, c4⟩ := g4
    rw [c2] at c4
    cases c4
    exact g3

/-- C133: what apps rely on when they keep data under a principal: `get_address(p)` never answers two addresses, however long the time between and whatever
installations, upgrades and logins. -/
theorem C133_address_never_changes (E : Env) (h l : History) (hs : ShortSalts (trace E (h ++ l))) (now now' : UInt64) (p a a' : Bytes)
    (h1 : (step (stateAfter E h) now (.getAddress p)).2 = .bytes a) (h2 : (step (stateAfter E (h ++ l)) now' (.getAddress p)).2 = .bytes a') :
    a = a' ∨ CollideAcross E (trace E (h ++ l)) := by
  obtain ⟨e, he, k, n, d, g1, g2⟩ := address_login h1
  obtain ⟨e', he', k', n', d', g1', g2'⟩ := address_login h2
  refine C133_one_address E (h ++ l) hs e e' ?_ he' a k n a' k' n' d d' g1 g1' (g2.trans g2'.symm)
  rw [trace, traceFrom_append]
  exact List.mem_append_left _ he

/-- C133: as long as the mappings are kept, whatever else changes, the principal that `get_principal` gives for an address is one whose address
`get_address` gives as that address. -/
theorem C133_principal_of_address (E : Env) (h : History) (hm : AlwaysMapped (trace E h)) (hs : ShortSalts (trace E h)) (now now' : UInt64) (a p : Bytes)
    (hr : (step (stateAfter E h) now (.getPrincipal a)).2 = .bytes p) :
    (step (stateAfter E h) now' (.getAddress p)).2 = .bytes a ∨ CollideAcross E (trace E h) := by
  have kept : ∀ es f, (f = .disablePrincipalToEthMapping ∨ f = .disableEthToPrincipalMapping) → (∀ e ∈ es, e ∈ trace E h) → ¬HasFeature es f := by
    rintro es f hf hes ⟨i, ⟨b, e, af, g1, _, g2, g3⟩, g4⟩
    have := hm e (hes e (by rw [g1]; simp)) i g2 g3
    rcases hf with rfl | rfl
    · exact this.2 g4
    · exact this.1 g4
  have hx := C72_get_principal E h now a
  rw [hr] at hx
  cases hx with
  | found _ _ ha hf =>
    obtain ⟨b, e, key, nonce, d, ⟨af, g1, _, g2, _⟩, g3, g4⟩ := hf
    have hc : CountsForPrincipal E p b e := ⟨kept b _ (.inl rfl) (fun x hx => by rw [g1]; simp [hx]), a, key, nonce, d, g3, g4⟩
    obtain ⟨b', e', af', q1, q2, q3⟩ := exists_lastCounted hc g2
    rw [← g1] at q1
    obtain ⟨_, a', key', nonce', d', q4, q5⟩ := q2
    have ho : AddressOf E (trace E h) p a' := ⟨b', e', key', nonce', d', ⟨af', q1, ⟨kept b' _ (.inl rfl) (fun x hx => by rw [q1]; simp [hx]),
      a', key', nonce', d', q4, q5⟩, q3⟩, q4⟩
    have hans := C72_get_address E h now' p
    generalize (step (stateAfter E h) now' (.getAddress p)).2 = r at hans ⊢
    cases hans with
    | disabled q => exact absurd q (kept _ _ (.inl rfl) fun _ hx => hx)
    | tooLong _ q =>
      rw [← g4] at q
      simp [principalOfKey, Hash28.len] at q
    | none _ _ q => exact absurd ho (q a')
    | found a'' _ q =>
      obtain rfl := (C72_unique E h).1 p a'' a' q ho
      rcases C133_one_address E h hs e e' (by rw [g1]; simp) (by rw [q1]; simp) a key nonce a'' key' nonce' d d' g3 q4 (g4.trans q5.symm) with rfl | hcol
      · exact .inl rfl
      · exact .inr hcol

/-- A computable check of both conditions on the calls alone. -/
def Ex.keptAndShort : Op → Bool
  | .install j | .upgrade j => decide (.disableEthToPrincipalMapping ∉ j.runtimeFeatures.getD [] ∧ .disablePrincipalToEthMapping ∉ j.runtimeFeatures.getD []) &&
      decide (j.salt.length ≤ 255)
  | _ => true

theorem Ex.keptAndShort_spec {E : Env} {h : History} (hh : h.all (fun x => Ex.keptAndShort x.2) = true) : AlwaysMapped (trace E h) ∧ ShortSalts (trace E h) := by
  have hboth : ∀ e ∈ trace E h, ∀ j, (e.call = .install j ∨ e.call = .upgrade j) → KeepsMappings j ∧ j.salt.length ≤ 255 := by
    intro e he j hj
    unfold KeepsMappings
    obtain ⟨b, a, ht⟩ := List.append_of_mem he
    obtain ⟨h1, h2, e1, _⟩ := traceFrom_split ht
    have : Ex.keptAndShort e.call = true := List.all_eq_true.mp hh (e.time, e.call) (by rw [e1]; simp)
    rcases hj with hj | hj <;> rw [hj] at this <;> exact ⟨of_decide_eq_true (Bool.and_eq_true_iff.mp this).1, of_decide_eq_true (Bool.and_eq_true_iff.mp this).2⟩
  exact ⟨fun e he j hj _ => (hboth e he j hj).1, fun e he j hj _ => (hboth e he j hj).2⟩

/-- Non-vacuity, for all three: Alice's two logins, under two salts, and the answers after both. -/
theorem Ex.twoLogins_kept : AlwaysMapped (trace Toy.env Ex.twoLogins) ∧ ShortSalts (trace Toy.env Ex.twoLogins) :=
  Ex.keptAndShort_spec (by decide +kernel)

example : (step (stateAfter Toy.env Ex.twoLogins) 200 (.getPrincipal Ex.alice)).2 = .bytes (principalOf Toy.env Ex.otherSalt Ex.alice) ∧
    (step (stateAfter Toy.env Ex.twoLogins) 200 (.getAddress (principalOf Toy.env Ex.otherSalt Ex.alice))).2 = .bytes Ex.alice ∧
    (step (stateAfter Toy.env Ex.loggedIn) 200 (.getAddress Ex.alicePrincipal)).2 = .bytes Ex.alice ∧
    (step (stateAfter Toy.env Ex.twoLogins) 200 (.getAddress Ex.alicePrincipal)).2 = .bytes Ex.alice := by decide +kernel

/-- C133: the other direction is false through changes of the configuration: an address keeps its old principals. After the salt was changed and Alice signed in
again, two principals have Alice's address, and `get_principal` knows the last one only. -/
theorem C133_several_principals : ¬AlwaysOneToOne Toy.env := by
  intro H
  have h := (H Ex.twoLogins 200 Ex.alice Ex.alicePrincipal Ex.twoLogins_kept.1 Ex.twoLogins_kept.2).mpr (by decide +kernel)
  have h' : (step (stateAfter Toy.env Ex.twoLogins) 200 (.getPrincipal Ex.alice)).2 = .bytes (principalOf Toy.env Ex.otherSalt Ex.alice) := by decide +kernel
  rw [h'] at h
  exact absurd (Reply.bytes.inj h) (by decide +kernel)

end Siwe
