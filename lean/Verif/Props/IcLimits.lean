import Verif.Spec.IcLimits
import Verif.Spec.SignOut
import Verif.Props.App
/- C134: the sessions that a canister grants keep the limits of the Internet Computer. -/
namespace Siwe
open Spec

/-- The delegation that is handed out has the session key, and the targets of the configuration in force. -/
theorem given_contents {E : Env} {h : History} {now : UInt64} {cert : Option Bytes} {addr key : Bytes} {exp : UInt64} {sd : SignedDelegation}
    (hr : (step (stateAfter E h) now (.getDelegation cert addr key exp)).2 = .delegation sd) :
    ∃ s, (stateAfter E h).lib.settings = some s ∧ sd.delegation = ⟨key, exp, s.targets⟩ := by
  have hdr := C52_decision E h now cert addr key exp
  rw [hr] at hdr
  cases hdr with
  | success _ s sh dh w _ g1 g2 g3 g4 g5 g6 g7 g8 g9 g10 g11 => exact ⟨s, g2, by rw [g10]; rfl⟩

/-- C134: every delegation that a canister ever hands out has at most 1000 targets, at least one, and none twice; if it has targets at all. -/
theorem C134_targets (E : Env) (h : History) (now : UInt64) (cert : Option Bytes) (addr key : Bytes) (exp : UInt64) (sd : SignedDelegation)
    (hr : (step (stateAfter E h) now (.getDelegation cert addr key exp)).2 = .delegation sd) (ts : List Bytes) (hts : sd.delegation.targets = some ts) :
    ts.length ≤ 1000 ∧ ts ≠ [] ∧ ts.Nodup := by
  obtain ⟨s, h1, h2⟩ := given_contents hr
  have hv := (inv_stateAfter E h).valid s h1
  rw [h2] at hts
  have h3 : s.targets ≠ some [] := hv (_, .targetsEmpty) (by simp [requirements])
  have h4 : ∀ ts, s.targets = some ts → ts.length ≤ 1000 := hv (_, .tooManyTargets) (by simp [requirements])
  have h5 : ∀ ts, s.targets = some ts → ts.Nodup := hv (_, .duplicateTargets) (by simp [requirements])
  exact ⟨h4 ts hts, fun h => h3 (by rw [← h]; exact hts), h5 ts hts⟩

/-- C134: a request with such a delegation, and perhaps further ones made by the session key, keeps the limits exactly if there are at most 19 further ones, these keep
their limit on targets, and no key occurs twice. -/
theorem C134_limits (E : Env) (h : History) (now : UInt64) (cert : Option Bytes) (addr key : Bytes) (exp : UInt64) (sd : SignedDelegation)
    (hr : (step (stateAfter E h) now (.getDelegation cert addr key exp)).2 = .delegation sd) (id sender canister user sig : Bytes) (rest : List SignedDelegation) :
    IcLimits ⟨id, sender, canister, user, sd :: rest, sig⟩ ↔
      rest.length ≤ 19 ∧ (∀ d ∈ rest, FewTargets d.delegation) ∧ (user :: key :: rest.map fun d => d.delegation.pubkey).Nodup := by
  obtain ⟨s, _, h2⟩ := given_contents hr
  have hp : sd.delegation.pubkey = key := by rw [h2]
  constructor
  · rintro ⟨h1, ht, hn⟩
    refine ⟨by simpa using h1, fun d hd => ht d (by simp [hd]), ?_⟩
    rw [List.map_cons, hp] at hn
    exact hn
  · rintro ⟨h1, ht, hn⟩
    refine ⟨by simpa using h1, fun d hd => ?_, ?_⟩
    · rcases List.mem_cons.mp hd with rfl | hd
      · exact fun ts hts => (C134_targets E h now cert addr key exp _ hr ts hts).1
      · exact ht d hd
    · rw [List.map_cons, hp]
      exact hn

/-- C134: so the IC accepts a session's requests, limits included: as C81, for a session key other than the user's own key. -/
theorem C134_session_is_accepted (E : Env) (h : History) (now : UInt64) (cert addr key : Bytes) (sd : SignedDelegation)
    (before after : List Event) (e : Event) (nonce : Bytes) (ld : LoginDetails)
    (hr : (step (stateAfter E h) now (.getDelegation (some cert) addr key ld.expiration)).2 = .delegation sd)
    (hcert : cert.length < 2 ^ 64) (ht : trace E h = before ++ e :: after) (hm : SameModule after) (hl : e.LogsIn addr key nonce ld)
    (hharm : RefusalsHarmless (trace E h)) (valid : Bytes → Bytes → Bytes → Prop)
    (hvalid : ∀ k m sig, CanisterSigned E E.canisterId (stateAfter E h).certifiedData cert k m sig → valid k m sig)
    (hkey : key ≠ ld.userCanisterPubkey) :
    ∃ s p, InForce E (trace E h) s p ∧
      ∀ (t : UInt64) (id canister sig : Bytes), valid key (requestMessage id) sig → t.toNat ≤ ld.expiration.toNat →
        (∀ ts, s.targets = some ts → canister ∈ ts) →
        Accepted E valid t ⟨id, principalOfKey E ld.userCanisterPubkey, canister, ld.userCanisterPubkey, [sd], sig⟩ ∧
        IcLimits ⟨id, principalOfKey E ld.userCanisterPubkey, canister, ld.userCanisterPubkey, [sd], sig⟩ := by
  obtain ⟨s, p, hs, hacc⟩ := C81_session_is_accepted E h now cert addr key sd before after e nonce ld hr hcert ht hm hl hharm valid hvalid
  exact ⟨s, p, hs, fun t id canister sig h1 h2 h3 => ⟨hacc t id canister sig h1 h2 h3,
    (C134_limits E h now (some cert) addr key ld.expiration sd hr _ _ _ _ _ []).mpr ⟨by simp, by simp, by simp [Ne.symm hkey]⟩⟩⟩

/-- C134: requests with an identity that a page shows keep the limits, unless the page's session key is the user's own key. -/
theorem C134_page (E : Env) (K : SessionKeys) (hs : List Happening) (i : Identity) (hi : (worldAfter E K hs).client.ctx.identity = some i)
    (id canister sig : Bytes) : IcLimits (requestWith E i id canister sig) ↔ K i.session ≠ i.chain.publicKey := by
  obtain ⟨calls, later, t, cert, account, d, sd, g1, g2, g3, g4, g5, g6⟩ := displayed_given hi
  have hsd : (⟨i.chain.delegation, i.chain.signature⟩ : SignedDelegation) = sd := by rw [g4]; rfl
  unfold requestWith
  rw [hsd, C134_limits E calls t cert account (K i.session) d.expiration sd g3]
  simp [eq_comm]

/-- Non-vacuity: Alice's request keeps the limits; a configuration with the canister and another one as targets is accepted, and Alice's delegation then has these. -/
def Ex.twoTargets : History :=
  [(1, .install { Ex.input with targets := some [Toy.env.canisterId, [1, 2, 3]] }), (2, .rngSeeded [1, 2, 3]), (5, .prepareLogin Ex.alice),
    (100, .login Ex.aliceSig Ex.alice Ex.key (Ex.nonce 3))]

example : (match (step (stateAfter Toy.env Ex.twoTargets) 110 (.getDelegation (some [9]) Ex.alice Ex.key Ex.expiration)).2 with
    | .delegation sd => sd.delegation.targets | _ => none) = some [Toy.env.canisterId, [1, 2, 3]] ∧ Ex.key ≠ Ex.details.userCanisterPubkey ∧
    Ex.keys Ex.identity.session ≠ Ex.identity.chain.publicKey := by decide +kernel

end Siwe
