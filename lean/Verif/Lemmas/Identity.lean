import Verif.Spec.Identity
import Verif.Lemmas.Prepare
/- Seeds and the strings they are hashes of. -/
namespace Siwe
open Spec

theorem uriInSeed_iff (s : Settings) : uriInSeed s = true ↔ UsesUri s := by
  unfold uriInSeed UsesUri
  cases s.runtimeFeatures <;> simp

theorem seedInput_uses {s : Settings} (h : UsesUri s) (a : EthAddress) :
    seedInput s a = identityString s.salt a.str (some s.uri) := by
  simp [seedInput, identityString, (uriInSeed_iff s).2 h, asU8]

theorem seedInput_without {s : Settings} (h : ¬ UsesUri s) (a : EthAddress) :
    seedInput s a = identityString s.salt a.str none := by
  have : uriInSeed s = false := by rw [← Bool.not_eq_true, uriInSeed_iff]; exact h
  simp [seedInput, identityString, this, asU8]

theorem len_byte {n m : Nat} (hn : n ≤ 255) (hm : m ≤ 255) (h : UInt8.ofNat n = UInt8.ofNat m) : n = m := by
  have := congrArg UInt8.toNat h
  rw [UInt8.toNat_ofNat', UInt8.toNat_ofNat'] at this
  omega

theorem identityString_inj {salt salt' a a' : Bytes} {u u' : Option Bytes} (hs : salt.length ≤ 255)
    (hs' : salt'.length ≤ 255) (ha : a.length ≤ 255) (ha' : a'.length ≤ 255)
    (h : identityString salt a u = identityString salt' a' u') : salt = salt' ∧ a = a' ∧ u = u' := by
  unfold identityString at h
  simp only [List.cons_append, List.append_assoc, List.cons.injEq] at h
  obtain ⟨h1, h2⟩ := h
  obtain ⟨e1, h2⟩ := List.append_inj h2 (len_byte hs hs' h1)
  simp only [List.cons.injEq] at h2
  obtain ⟨h3, h4⟩ := h2
  obtain ⟨e2, h4⟩ := List.append_inj h4 (len_byte ha ha' h3)
  refine ⟨e1, e2, ?_⟩
  cases u <;> cases u' <;> simp_all

theorem identityString_parts (salt a : Bytes) (u : Option Bytes) :
    identityString salt a u = UInt8.ofNat salt.length :: salt ++ UInt8.ofNat a.length :: a ++ uriPart u := by
  cases u <;> rfl

theorem identityString_inj_of_length {salt salt' a a' : Bytes} {u u' : Option Bytes} (hs : salt.length = salt'.length)
    (ha : a.length = a'.length) (h : identityString salt a u = identityString salt' a' u') : salt = salt' ∧ a = a' ∧ u = u' := by
  unfold identityString at h
  simp only [List.cons_append, List.append_assoc, List.cons.injEq] at h
  obtain ⟨_, h2⟩ := h
  obtain ⟨e1, h2⟩ := List.append_inj h2 hs
  simp only [List.cons.injEq] at h2
  obtain ⟨_, h4⟩ := h2
  obtain ⟨e2, h4⟩ := List.append_inj h4 ha
  refine ⟨e1, e2, ?_⟩
  cases u <;> cases u' <;> simp_all

theorem identityString_address_inj {salt a a' : Bytes} {u : Option Bytes} (hl : a.length = a'.length)
    (h : identityString salt a u = identityString salt a' u) : a = a' := by
  unfold identityString at h
  simp only [List.cons_append, List.append_assoc, List.cons.injEq, List.append_cancel_left_eq] at h
  exact (List.append_inj h.2.2 hl).1

end Siwe
