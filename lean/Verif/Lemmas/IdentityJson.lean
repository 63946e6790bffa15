import Verif.Spec.Reload
import Verif.Lemmas.JsonGrammar
import Verif.Lemmas.Hex
import Verif.Lemmas.Mappings
import Verif.Lemmas.Client
/- Helper lemmas for C106: the library's texts are read back. -/
namespace Siwe.IdentityJson
open Spec
open Json (Grammatical GrammaticalItems GrammaticalFields)

theorem digit_digitChar : ∀ n, n < 16 → digit (digitChar n) = some n := by decide

theorem digit_upper : ∀ n, n < 16 → digit (upper (digitChar n)) = some n := by decide

theorem byte_div (b : UInt8) : b.toNat / 16 < 16 := by have := b.toNat_lt; omega

theorem byte_back (b : UInt8) : UInt8.ofNat (16 * (b.toNat / 16) + b.toNat % 16) = b := by
  rw [Nat.div_add_mod]; simp

theorem pairs_toHex : ∀ bs, pairs (toHex bs) = some bs
  | [] => rfl
  | b :: bs => by
    simp only [toHex, pairs, digit_digitChar _ (byte_div b), digit_digitChar _ (Nat.mod_lt _ (by decide : 16 > 0)), pairs_toHex bs,
      byte_back]

theorem pairs_upper : ∀ bs, pairs ((toHex bs).map upper) = some bs
  | [] => rfl
  | b :: bs => by
    simp only [toHex, List.map_cons, pairs, digit_upper _ (byte_div b), digit_upper _ (Nat.mod_lt _ (by decide : 16 > 0)), pairs_upper bs,
      byte_back]

theorem toHex_length : ∀ bs, (toHex bs).length = 2 * bs.length
  | [] => rfl
  | b :: bs => by simp only [toHex, List.length_cons, toHex_length bs]; omega

theorem fromHex_toHex (bs : Bytes) (h : bs ≠ []) : fromHex (toHex bs) = some bs := by
  unfold fromHex
  cases bs with
  | nil => exact absurd rfl h
  | cons b bs => rw [if_neg (by simp [toHex]), pairs_toHex]

theorem parseBlob_toHex (bs : Bytes) : parseBlob (some (.str (toHex bs))) = if 32 ≤ bs.length then some bs else none := by
  simp only [parseBlob, toHex_length]
  by_cases h : 32 ≤ bs.length
  · rw [if_neg (by omega), if_pos h, fromHex_toHex]
    rintro rfl; simp at h
  · rw [if_pos (by omega), if_neg h]

theorem bigIntDigits_append : ∀ (s : Bytes) (n : Nat) (t : Bytes),
    bigIntDigits n (s ++ t) = (bigIntDigits n s).bind fun m => bigIntDigits m t
  | [], n, t => rfl
  | c :: s, n, t => by
    simp only [List.cons_append, bigIntDigits]
    cases digit c with
    | none => rfl
    | some x => exact bigIntDigits_append s _ t

theorem radix16_read : ∀ (w n : Nat), n < 16 ^ (w + 1) → bigIntDigits 0 (radix16 (w + 1) n) = some n ∧ radix16 (w + 1) n ≠ []
  | 0, n, h => by
    simp only [radix16]
    rw [if_pos (by simpa using h)]
    simp [bigIntDigits, digit_digitChar n (by simpa using h)]
  | w + 1, n, h => by
    rw [radix16]
    split
    · next h16 => simp [bigIntDigits, digit_digitChar n h16]
    · have hd : n / 16 < 16 ^ (w + 1) := by
        rw [Nat.div_lt_iff_lt_mul (by decide)]; rwa [Nat.pow_succ] at h
      obtain ⟨h1, h2⟩ := radix16_read w (n / 16) hd
      refine ⟨?_, by simp⟩
      rw [bigIntDigits_append, h1]
      simp only [Option.bind_some, bigIntDigits, digit_digitChar _ (Nat.mod_lt n (by decide : 16 > 0)), Nat.div_add_mod]

theorem readExpiration_radix16 (e : UInt64) : readExpiration (some (.str (radix16 16 e.toNat))) = some e := by
  obtain ⟨h1, h2⟩ := radix16_read 15 e.toNat (by have := e.toNat_lt; omega)
  have : bigIntHex (radix16 16 e.toNat) = some e.toNat := by
    unfold bigIntHex
    rw [if_neg (by rw [List.isEmpty_iff]; exact h2)]
    exact h1
  simp only [readExpiration, this]
  rw [if_pos e.toNat_lt]
  simp

theorem principals_map : ∀ ts : List Bytes, principals (ts.map fun t => .str (principalToHex t)) = some ts
  | [] => rfl
  | t :: ts => by
    simp only [List.map_cons, principals, principalFromHex, principalToHex, pairs_upper]
    rw [show principals (ts.map fun t => .str ((toHex t).map upper)) = some ts from principals_map ts]

theorem grammatical_targets : ∀ ts : List Bytes, GrammaticalItems (ts.map fun t => .str (principalToHex t))
  | [] => by simp [GrammaticalItems]
  | t :: ts => by
    simp only [List.map_cons, GrammaticalItems, Grammatical, true_and]
    exact grammatical_targets ts

theorem grammatical_chain (c : Chain) : Grammatical (chainToJson c) := by
  obtain ⟨⟨p, e, t⟩, s, k⟩ := c
  cases t <;> simp [chainToJson, signedToJson, targetsToJson, Grammatical, GrammaticalFields, GrammaticalItems, grammatical_targets]

theorem grammatical_key (P : KeyPairs) (n : Nat) : Grammatical (keyToJson P n) := by
  simp [keyToJson, Grammatical, GrammaticalItems]

theorem field_last (k : Bytes) (v : Json) (l : List (Bytes × Json)) : Json.field k (.obj (l ++ [(k, v)])) = some v := by
  simp [Json.field]

theorem field_skip {k k' : Bytes} (h : k' ≠ k) (v : Json) (l : List (Bytes × Json)) :
    Json.field k (.obj (l ++ [(k', v)])) = Json.field k (.obj l) := by
  simp [Json.field, h]

theorem readSigned_json (d : Delegation) (s : Bytes) :
    readSigned (signedToJson d s) =
      if 32 ≤ d.pubkey.length ∧ 32 ≤ s.length then some (d, s) else none := by
  obtain ⟨p, e, t⟩ := d
  have step : ∀ D : Json, readSigned (.obj [(ascii "delegation", D), (ascii "signature", .str (toHex s))]) =
      match readTargets (D.field (ascii "targets")), parseBlob (D.field (ascii "pubkey")),
        readExpiration (D.field (ascii "expiration")), parseBlob (some (.str (toHex s))) with
      | some targets, some pubkey, some expiration, some signature => some (⟨pubkey, expiration, targets⟩, signature)
      | _, _, _, _ => none := by
    intro D
    have f1 : Json.field (ascii "delegation") (.obj [(ascii "delegation", D), (ascii "signature", .str (toHex s))]) = some D :=
      (field_skip (by decide) _ [_]).trans (field_last _ _ [])
    have f2 : Json.field (ascii "signature") (.obj [(ascii "delegation", D), (ascii "signature", .str (toHex s))]) =
      some (.str (toHex s)) := field_last _ _ [_]
    unfold readSigned
    rw [f1, f2]
    rfl
  rw [signedToJson, step, parseBlob_toHex]
  cases t with
  | none =>
    simp only [List.append_nil]
    rw [show Json.field (ascii "targets") (.obj [(ascii "expiration", .str (radix16 16 e.toNat)), (ascii "pubkey", .str (toHex p))]) = none
        from (field_skip (by decide) _ [_]).trans ((field_skip (by decide) _ []).trans rfl),
      show Json.field (ascii "pubkey") (.obj [(ascii "expiration", .str (radix16 16 e.toNat)), (ascii "pubkey", .str (toHex p))]) =
        some (.str (toHex p)) from field_last _ _ [_],
      show Json.field (ascii "expiration") (.obj [(ascii "expiration", .str (radix16 16 e.toNat)), (ascii "pubkey", .str (toHex p))]) =
        some (.str (radix16 16 e.toNat)) from (field_skip (by decide) _ [_]).trans (field_last _ _ []),
      parseBlob_toHex, readExpiration_radix16]
    by_cases h1 : 32 ≤ p.length <;> by_cases h2 : 32 ≤ s.length <;> simp [h1, h2, readTargets]
  | some ts =>
    simp only [List.cons_append, List.nil_append]
    rw [show Json.field (ascii "targets") (.obj [(ascii "expiration", .str (radix16 16 e.toNat)), (ascii "pubkey", .str (toHex p)),
        (ascii "targets", targetsToJson ts)]) = some (targetsToJson ts) from field_last _ _ [_, _],
      show Json.field (ascii "pubkey") (.obj [(ascii "expiration", .str (radix16 16 e.toNat)), (ascii "pubkey", .str (toHex p)),
        (ascii "targets", targetsToJson ts)]) =
        some (.str (toHex p)) from (field_skip (by decide) _ [_, _]).trans (field_last _ _ [_]),
      show Json.field (ascii "expiration") (.obj [(ascii "expiration", .str (radix16 16 e.toNat)), (ascii "pubkey", .str (toHex p)),
        (ascii "targets", targetsToJson ts)]) =
        some (.str (radix16 16 e.toNat)) from
          (field_skip (by decide) _ [_, _]).trans ((field_skip (by decide) _ [_]).trans (field_last _ _ [])),
      parseBlob_toHex, readExpiration_radix16]
    have ht : readTargets (some (targetsToJson ts)) = some (some ts) := by
      simp only [targetsToJson, readTargets, principals_map]
    rw [ht]
    by_cases h1 : 32 ≤ p.length <;> by_cases h2 : 32 ≤ s.length <;> simp [h1, h2]

/-- A chain is read back if it is long enough, and refused otherwise. -/
theorem chain_back (c : Chain) :
    chainFromJson (chainToJson c).text =
      if 32 ≤ c.delegation.pubkey.length ∧ 32 ≤ c.signature.length ∧ 32 ≤ c.publicKey.length then some c else none := by
  unfold chainFromJson
  rw [Json.parse_text (grammatical_chain c)]
  obtain ⟨d, s, k⟩ := c
  simp only [chainToJson]
  rw [show ∀ D : Json, Json.field (ascii "delegations") (.obj [(ascii "delegations", D), (ascii "publicKey", .str (toHex k))]) =
      some D from fun D => (field_skip (by decide) _ [_]).trans (field_last _ _ []),
    show ∀ D : Json, Json.field (ascii "publicKey") (.obj [(ascii "delegations", D), (ascii "publicKey", .str (toHex k))]) =
      some (.str (toHex k)) from fun D => field_last _ _ [_]]
  simp only [parseBlob_toHex]
  rw [readSigned_json]
  by_cases h1 : 32 ≤ d.pubkey.length <;> by_cases h2 : 32 ≤ s.length <;> by_cases h3 : 32 ≤ k.length <;> simp [h1, h2, h3]

theorem wrapDer_eq {key : Bytes} (h : key.length = 32) :
    wrapDer key = [0x30, 0x2a, 0x30, 0x05, 0x06, 0x03, 0x2b, 0x65, 0x70, 0x03, 0x21, 0x00] ++ key := by
  simp only [wrapDer, h]
  rfl

theorem unwrapDer_wrapDer {key : Bytes} (h : key.length = 32) : unwrapDer (wrapDer key) = some key := by
  rw [wrapDer_eq h]
  show (if 33 = key.length + 1 then some key else none) = some key
  rw [h]; rfl

theorem key_back {P : KeyPairs} {K : SessionKeys} {ns : List Nat} (g : GeneratedKeys P K ns) {n : Nat} (hn : n ∈ ns) :
    keyFromJson P (keyToJson P n).text = some n := by
  obtain ⟨g1, g2, g3, _⟩ := g n hn
  unfold keyFromJson
  rw [Json.parse_text (grammatical_key P n)]
  simp only [keyToJson]
  rw [fromHex_toHex (wrapDer (P.pub n)) (by simp [wrapDer]), fromHex_toHex (P.priv n) (by intro h; rw [h] at g2; cases g2)]
  simp only [unwrapDer_wrapDer g1, g1, if_true, g3]

/-! What the canister hands out is long enough. -/

theorem derTlv_le (t : UInt8) (b : Bytes) : b.length ≤ (derTlv t b).length := by
  simp [derTlv]; omega

theorem userKey_long (c : Bytes) (seed : Hash) : 32 ≤ (createUserCanisterPubkey c seed.bytes).length := by
  unfold createUserCanisterPubkey
  refine Nat.le_trans ?_ (derTlv_le _ _)
  rw [List.length_append]
  refine Nat.le_trans ?_ (Nat.le_add_left _ _)
  refine Nat.le_trans ?_ (derTlv_le _ _)
  simp [seed.len]

theorem signature_long (c : Bytes) (h : Hash) (t : HashTree) : 32 ≤ (createCertifiedSignature c (.fork (.pruned h) t)).length := by
  simp only [createCertifiedSignature, cborTree, cborBytes, List.length_append, h.len]
  omega

theorem loggedIn_key {E : Env} {h : History} {e : Event} {d : LoginDetails} (he : e ∈ trace E h) (hd : e.reply = .loggedIn d) :
    32 ≤ d.userCanisterPubkey.length := by
  induction h using history_induction with
  | nil => simp [trace, traceFrom] at he
  | snoc h now op ih =>
    rw [show trace E (h ++ [(now, op)]) = trace E h ++ [⟨now, op, (step (stateAfter E h) now op).2⟩] from traceFrom_snoc _ _ _ _,
      List.mem_append, List.mem_singleton] at he
    rcases he with he | rfl
    · exact ih he
    · cases mapEffect (inv_stateAfter E h) now op with
      | cleared g _ _ => obtain ⟨i, _, g⟩ := g; simp only at g hd; rw [hd] at g; cases g
      | same _ g _ _ => exact absurd hd (g d)
      | mapped sig addr key nonce bs d' s g1 g2 g3 g4 g5 g6 g7 _ _ =>
        simp only [g2, Reply.loggedIn.injEq] at hd
        rw [← hd, g7]
        exact userKey_long _ _

theorem obtained_sent {E : Env} {K : SessionKeys} {h : History} {l : List Output} {a : Bytes}
    {i : Identity} (x : Obtained E K h l a i) : i.session ∈ sentSessions l := by
  obtain ⟨before, after, t, cert, d, sd, rfl, hr, hc, sig, p, _, hl, _⟩ := x
  exact List.mem_filterMap.2 ⟨_, hl, rfl⟩

theorem obtained_long {E : Env} {K : SessionKeys} {h : History} {l : List Output} {a : Bytes}
    {i : Identity} (hk : 32 ≤ (K i.session).length) (x : Obtained E K h l a i) : LongEnough i.chain := by
  obtain ⟨before, after, t, cert, d, sd, rfl, hr, hc, sig, p, _, _, e, he, _, hd⟩ := x
  rw [hc]
  have hl := loggedIn_key he hd
  have hg := getDelegation_reply (inv_stateAfter E before) t cert a (K i.session) d.expiration
  rw [hr] at hg
  cases hg with
  | success c s sh dh w _ _ _ _ _ _ _ _ _ _ h1 h2 =>
    refine ⟨?_, ?_, hl⟩
    · simp only [h1, granted]; exact hk
    · simp only [h2]; exact signature_long _ _ _

end Siwe.IdentityJson
