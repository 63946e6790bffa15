import Verif.Lemmas.Message
import Verif.Model.Provider
/- Helper lemmas about `prepare_login`. -/
namespace Siwe
open Spec

theorem mapKeyInput_eq {bs : Bytes} (h : bs.length = 20) (n : Bytes) : mapKeyInput bs n = pendingKey bs n := by
  simp [mapKeyInput, pendingKey, h, asU8]

theorem mapHash_eq (ε : Type) {E : Env} {a : EthAddress} {bs : Bytes} (h : EthAddress.asBytes a = .ok bs)
    (hl : bs.length = 20) (nonce : Bytes) :
    (siweMessageMapHash E a nonce : Res ε Hash) = .ok (E.sha256 (pendingKey bs nonce)) := by
  simp [siweMessageMapHash, h, hashBytes, mapKeyInput_eq hl]

theorem pendingKey_inj {a a' n n' : Bytes} (ha : a.length = 20) (ha' : a'.length = 20)
    (h : pendingKey a n = pendingKey a' n') : a = a' ∧ n = n' := by
  rw [← mapKeyInput_eq ha, ← mapKeyInput_eq ha'] at h
  exact mapKeyInput_inj ha ha' h

/-- The nonce produced from a generator state. -/
def nonceOf (E : Env) (r : E.Rng) : Bytes := hexEncode (E.rngFill10 r).1.val

theorem nonceOf_length (E : Env) (r : E.Rng) : (nonceOf E r).length = 20 := by
  rw [nonceOf, hexEncode_length, (E.rngFill10 r).1.property]

theorem nonceOf_hex (E : Env) (r : E.Rng) : ∀ c ∈ nonceOf E r, isHexDigit c = true ∧ isUpperLetter c = false :=
  fun c hc => ⟨spells_hex (hexEncode_spells _) c hc, hexEncode_lower _ c hc⟩

/-- the library state after a successful `prepare_login` -/
def preparedLib {E : Env} (l : LibState E) (r : E.Rng) (s : Settings) (now : UInt64) (a : EthAddress)
    (bs : Bytes) : LibState E :=
  { l with
    rng := some (E.rngFill10 r).2
    messages := (E.sha256 (pendingKey bs (nonceOf E r)), SiweMessage.new s now a (nonceOf E r)) ::
      SiweMessageMap.erase l.messages (E.sha256 (pendingKey bs (nonceOf E r))) }

theorem prepareLogin_eq {E : Env} (l : LibState E) (now : UInt64) {a : EthAddress} {bs : Bytes}
    (h : EthAddress.asBytes a = .ok bs) (hl : bs.length = 20) {r : E.Rng} {s : Settings}
    (hr : l.rng = some r) (hs : l.settings = some s) :
    prepareLogin l now a =
      .ok (preparedLib l r s now a bs, SiweMessage.new s now a (nonceOf E r), nonceOf E r) := by
  have hh := mapHash_eq EthError (E := E) h hl (hexEncode (E.rngFill10 r).1.val)
  simp [prepareLogin, generateNonce, hr, hs, SiweMessageMap.insert, hh, preparedLib, nonceOf]

theorem prepareLogin_inv {E : Env} {l l' : LibState E} {now : UInt64} {a : EthAddress} {m : SiweMessage}
    {n : Bytes} (h : prepareLogin l now a = .ok (l', m, n)) :
    ∃ r s, l.rng = some r ∧ l.settings = some s ∧ n = nonceOf E r ∧ m = SiweMessage.new s now a n := by
  unfold prepareLogin generateNonce at h
  cases hr : l.rng with
  | none => simp [hr] at h
  | some r =>
    cases hs : l.settings with
    | none => simp [hr, hs] at h
    | some s =>
      simp only [hr, hs, Res.ok_bind] at h
      cases hi : (SiweMessageMap.insert E l.messages
          (SiweMessage.new s now a (hexEncode (E.rngFill10 r).1.val)) a
          (hexEncode (E.rngFill10 r).1.val) : Res EthError _) with
      | ok x =>
        rw [hi] at h
        simp only [Res.ok_bind, Res.ok.injEq, Prod.mk.injEq] at h
        exact ⟨r, s, rfl, rfl, h.2.2.symm, by rw [← h.2.1, ← h.2.2]⟩
      | err e => rw [hi] at h; cases h
      | panic => rw [hi] at h; cases h

theorem isAddress_of_new {E : Env} {s : Bytes} {a : EthAddress} (h : EthAddress.new E s = .ok a) :
    IsAddress E.keccak a.str ∧ a.str = s := by
  have := (ethAddress_new_ok_iff E s a).mp h
  exact ⟨this.2 ▸ this.1, this.2⟩

theorem siwePrepareLogin_ok {E : Env} (st : State E) (now : UInt64) {addr : Bytes} {l : LibState E}
    {m : SiweMessage} {n txt : Bytes} (hn : EthAddress.new E addr = .ok ⟨addr⟩)
    (hp : prepareLogin st.lib now ⟨addr⟩ = .ok (l, m, n)) (ht : (m.text : Res ProviderError _) = .ok txt) :
    siwePrepareLogin st now addr = ({ st with lib := l }, .ok ⟨txt, n⟩) := by
  simp only [siwePrepareLogin, hn, hp, ht, Res.elim_ok]

theorem siwePrepareLogin_panic {E : Env} (st : State E) (now : UInt64) {addr : Bytes}
    (hn : EthAddress.new E addr = .ok ⟨addr⟩) (h : st.lib.rng = none ∨ st.lib.settings = none) :
    siwePrepareLogin st now addr = (st, .panic) := by
  have : prepareLogin st.lib now ⟨addr⟩ = .panic := by
    unfold prepareLogin generateNonce
    cases hr : st.lib.rng with
    | none => rfl
    | some r =>
      rcases h with h | h
      · rw [h] at hr; cases hr
      · simp only [Res.ok_bind, h]
  simp only [siwePrepareLogin, hn, this]

/-- everything `siwe_prepare_login` can do -/
theorem siwePrepareLogin_cases {E : Env} (st : State E) (now : UInt64) (addr : Bytes) :
    (∃ e, ¬ IsAddress E.keccak addr ∧ siwePrepareLogin st now addr = (st, .err (.eth e))) ∨
    (IsAddress E.keccak addr ∧ (st.lib.rng = none ∨ st.lib.settings = none) ∧
      siwePrepareLogin st now addr = (st, .panic)) ∨
    (∃ bs r s txt, IsAddress E.keccak addr ∧ EthAddress.asBytes ⟨addr⟩ = .ok bs ∧ bs.length = 20 ∧
      st.lib.rng = some r ∧ st.lib.settings = some s ∧
      (SiweMessage.new s now ⟨addr⟩ (nonceOf E r)).text (ε := ProviderError) = .ok txt ∧
      IsSiweText (shown (SiweMessage.new s now ⟨addr⟩ (nonceOf E r))) txt ∧
      siwePrepareLogin st now addr =
        ({ st with lib := preparedLib st.lib r s now ⟨addr⟩ bs }, .ok ⟨txt, nonceOf E r⟩)) := by
  cases hn : EthAddress.new E addr with
  | panic => exact absurd hn (ethAddress_new_no_panic E addr)
  | err e =>
    left
    refine ⟨e, fun hA => ?_, by simp only [siwePrepareLogin, hn]⟩
    have := (ethAddress_new_ok_iff E addr ⟨addr⟩).mpr ⟨hA, rfl⟩
    rw [hn] at this; cases this
  | ok a =>
    right
    obtain ⟨hA, ha⟩ := (ethAddress_new_ok_iff E addr a).mp hn
    have : a = ⟨addr⟩ := by cases a; simp_all
    subst this
    obtain ⟨ds, bs, _, _, _, hl, hb, _⟩ := isAddress_bytes hA
    by_cases h : st.lib.rng = none ∨ st.lib.settings = none
    · left; exact ⟨hA, h, siwePrepareLogin_panic st now hn h⟩
    · right
      rw [not_or] at h
      obtain ⟨r, hr⟩ := Option.ne_none_iff_exists'.mp h.1
      obtain ⟨s, hs⟩ := Option.ne_none_iff_exists'.mp h.2
      obtain ⟨txt, ht, hspec⟩ := message_text_ok ProviderError (SiweMessage.new s now ⟨addr⟩ (nonceOf E r))
      exact ⟨bs, r, s, txt, hA, hb, hl, hr, hs, ht, hspec,
        siwePrepareLogin_ok st now hn (prepareLogin_eq st.lib now hb hl hr hs) ht⟩

end Siwe
