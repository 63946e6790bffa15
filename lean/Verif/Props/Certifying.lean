import Verif.Props.Embedding
import Verif.Props.Certificates
import Verif.Props.SigMap
import Verif.Spec.Certifying
/- Property C129: an embedding canister that certifies its signature maps. -/
namespace Siwe
open Spec

theorem certifyingRun_append {E : Env} (s : CertifyingState E) (h h' : CertifyingHistory) :
    certifyingRun s (h ++ h') = certifyingRun (certifyingRun s h) h' := by
  induction h generalizing s with
  | nil => rfl
  | cons x h ih => exact ih _

theorem usesOf_append (h h' : CertifyingHistory) : usesOf (h ++ h') = usesOf h ++ usesOf h' := by
  induction h with
  | nil => rfl
  | cons x h ih => obtain ⟨t, c⟩ := x; cases c <;> simp [usesOf, ih]

/-- The library does not notice the certifications. -/
theorem certifying_app {E : Env} (s : CertifyingState E) (h : CertifyingHistory) :
    (certifyingRun s h).app = appRun s.app (usesOf h) := by
  induction h generalizing s with
  | nil => rfl
  | cons x h ih =>
    obtain ⟨t, c⟩ := x
    simp only [certifyingRun]
    rw [ih]
    cases c <;> rfl

theorem certifyingAfter_app (E : Env) (h : CertifyingHistory) : (certifyingAfter E h).app = appAfter E (usesOf h) :=
  certifying_app _ h

theorem certifying_induction {P : CertifyingHistory → Prop} (nil : P []) (snoc : ∀ h x, P h → P (h ++ [x])) (h : CertifyingHistory) : P h := by
  rw [← List.reverse_reverse h]
  generalize h.reverse = r
  induction r with
  | nil => exact nil
  | cons x r ih => rw [List.reverse_cons]; exact snoc _ _ ih

/-- What `certify` sets is the digest of the tree with the signatures. -/
theorem certifyMap_data {E : Env} (s : CertifyingState E) (i : Nat) :
    (certifyMap s i).data = (digest E (certifiedTree (s.app.maps i))).bytes := by
  rw [digest_certifiedTree]; rfl

/-- C129: a delegation the canister serves is accepted by the IC's check, under the key of the address's identity, if and only if the
certified data is the digest of the signature map it is served from. -/
theorem C129_verifies_iff_certified (E : Env) (h : CertifyingHistory) (now : UInt64) (i : Nat) (cid cert addr key : Bytes)
    (expiration : UInt64) (sd : SignedDelegation) (s : Settings) (seed : Hash) (data : Bytes)
    (hr : serve (certifyingAfter E h) now i cert addr key expiration = some sd)
    (hcert : cert.length < 2 ^ 64) (hcid : cid.length ≤ 29) (hs : ConfiguredWith (libTrace E (usesOf h)) s) (hseed : IsSeed E s addr seed) :
    Verifies E cid data cert (createUserCanisterPubkey cid seed.bytes) sd ↔
      data = (digest E (certifiedTree ((certifyingAfter E h).app.maps i))).bytes := by
  unfold serve at hr
  rw [certifyingAfter_app] at hr ⊢
  have hw := C87_witness_answer E (usesOf h) now i addr key expiration
  change LibWitnessReply E _ _ now addr key expiration (appWitness (appAfter E (usesOf h)) now i addr key expiration) at hw
  split at hr
  · next d w heq =>
    rw [heq] at hw
    obtain rfl := Option.some.inj hr
    cases hw with
    | success s' sh dh _ h1 h2 h3 h4 h5 h6 h7 h8 h9 h10 =>
      obtain rfl := configured_unique hs h2
      obtain ⟨⟨seed', g1, rfl⟩, g2⟩ := h6
      rw [isSeed_unique g1 hseed] at h7 h8 h9
      obtain ⟨w', f1, f2, w1, f3, f4⟩ := SigMap.witness_spec E ((appInv_after E (usesOf h)).sigs i).trees h8
      rw [h9] at f1; cases f1
      have hadd : Addressable (.fork (.pruned (labeledHash E labelAssets (assetsRootHash E))) (.labeled labelSig w)) :=
        ⟨trivial, by decide, addressable_oneLabel f3 (by rw [Hash.len]; decide) (addressable_oneLabel f4
          (by rw [Hash.len]; decide) (by simp [Addressable]))⟩
      have hread : readSignature (createCertifiedSignature cert
          (.fork (.pruned (labeledHash E labelAssets (assetsRootHash E))) (.labeled labelSig w))) = some (cert,
          .fork (.pruned (labeledHash E labelAssets (assetsRootHash E))) (.labeled labelSig w)) := C50_signature_reads_back cert _ hcert hadd
      have hkey := C25_key_reads_back cid seed.bytes hcid (Hash.len _)
      have hdig : digest E (.fork (.pruned (labeledHash E labelAssets (assetsRootHash E))) (.labeled labelSig w)) =
          digest E (certifiedTree ((appAfter E (usesOf h)).maps i)) := by
        rw [digest_certifiedTree]
        simp only [digest, f2]
        rfl
      constructor
      · rintro ⟨sd, tree, dh', a1, a2, a3, a4, a5, a6⟩
        simp only at a2
        rw [hread] at a2; cases a2
        rw [← a4, hdig]
      · rintro rfl
        refine ⟨seed.bytes, _, dh, hkey, hread, ?_, by rw [hdig], g2, ?_⟩
        · have hw1 := wellFormed_oneLabel f4 (.leaf [])
          have hw := wellFormed_oneLabel f3 hw1
          refine .forest _ ?_ ?_ ?_
          · simp [flattenForks, labelsOf]
          · intro l u hu
            simp only [flattenForks, List.cons_append, List.nil_append, List.mem_cons, reduceCtorEq, HashTree.labeled.injEq,
              List.not_mem_nil, or_false, false_or] at hu
            rw [hu.2]; exact hw
          · intro v hv; simp [flattenForks] at hv
        · show (findLabel (ascii "sig") (flattenForks (.fork (.pruned _) (.labeled (ascii "sig") w)))).bind _ = some []
          have : findLabel (ascii "sig") (flattenForks (.fork (.pruned (labeledHash E labelAssets (assetsRootHash E)))
              (.labeled (ascii "sig") w))) = some w := by simp [flattenForks, findLabel]
          rw [this, Option.bind_some]
          show (findLabel _ (flattenForks w)).bind _ = some []
          rw [findLabel_oneLabel f3, Option.bind_some]
          show (findLabel _ (flattenForks w1)).bind _ = some []
          rw [findLabel_oneLabel f4]; rfl
  · cases hr

/-- Quiet calls leave data and map alone. -/
theorem quiet_keeps {E : Env} (i : Nat) (ha : CertifyingHistory) (hq : Quiet i ha) (hb : CertifyingHistory) :
    (certifyingAfter E (hb ++ ha)).data = (certifyingAfter E hb).data ∧
      (certifyingAfter E (hb ++ ha)).app.maps i = (certifyingAfter E hb).app.maps i := by
  induction ha using certifying_induction with
  | nil => simp
  | snoc ha x ih =>
    obtain ⟨ih1, ih2⟩ := ih fun y hy => hq y (by simp [hy])
    obtain ⟨c, hc, hn⟩ := hq x (by simp)
    obtain ⟨t, c'⟩ := x
    simp only at hc
    subst hc
    rw [← List.append_assoc]
    have hst : certifyingAfter E (hb ++ ha ++ [(t, .use c)]) = certifyingStep (certifyingAfter E (hb ++ ha)) t (.use c) := by
      unfold certifyingAfter; rw [certifyingRun_append]; rfl
    rw [hst]
    refine ⟨ih1, ?_⟩
    rw [← ih2]
    show (appStep (certifyingAfter E (hb ++ ha)).app t c).1.maps i = _
    rw [certifyingAfter_app]
    exact C87_other_maps_untouched E _ t c i hn

/-- C129: a canister that certifies its map after every call that works on it — every login, successful or not — serves only delegations
that the IC accepts. (The provider does so only after successful logins, see C29.) -/
theorem C129_certified_maps_verify (E : Env) (hb ha : CertifyingHistory) (t now : UInt64) (i : Nat) (cid cert addr key : Bytes)
    (expiration : UInt64) (sd : SignedDelegation) (s : Settings) (seed : Hash) (hq : Quiet i ha)
    (hr : serve (certifyingAfter E (hb ++ (t, .certify i) :: ha)) now i cert addr key expiration = some sd)
    (hcert : cert.length < 2 ^ 64) (hcid : cid.length ≤ 29)
    (hs : ConfiguredWith (libTrace E (usesOf (hb ++ (t, .certify i) :: ha))) s) (hseed : IsSeed E s addr seed) :
    Verifies E cid (certifyingAfter E (hb ++ (t, .certify i) :: ha)).data cert (createUserCanisterPubkey cid seed.bytes) sd := by
  rw [C129_verifies_iff_certified E _ now i cid cert addr key expiration sd s seed _ hr hcert hcid hs hseed]
  rw [show hb ++ (t, CertifyingCall.certify i) :: ha = (hb ++ [(t, .certify i)]) ++ ha by simp]
  obtain ⟨q1, q2⟩ := quiet_keeps (E := E) i ha hq (hb ++ [(t, .certify i)])
  rw [q1, q2]
  have hst : certifyingAfter E (hb ++ [(t, .certify i)]) = certifyMap (certifyingAfter E hb) i := by
    unfold certifyingAfter; rw [certifyingRun_append]; rfl
  rw [hst, certifyMap_data]
  rfl

/-- Where certified data comes from. -/
theorem certifying_origin (E : Env) (h : CertifyingHistory) : (certifyingAfter E h).data = [] ∨
    ∃ h1 h2 t i, h = h1 ++ (t, .certify i) :: h2 ∧ (∀ x ∈ h2, x.2 ≠ .install) ∧
      (certifyingAfter E h).data = (digest E (certifiedTree ((appAfter E (usesOf h1)).maps i))).bytes := by
  induction h using certifying_induction with
  | nil => exact .inl rfl
  | snoc h x ih =>
    obtain ⟨t, c⟩ := x
    have hst : certifyingAfter E (h ++ [(t, c)]) = certifyingStep (certifyingAfter E h) t c := by
      unfold certifyingAfter; rw [certifyingRun_append]; rfl
    rw [hst]
    cases c with
    | install => exact .inl rfl
    | use c =>
      rcases ih with ih | ⟨h1, h2, t', i, e1, e2, e3⟩
      · exact .inl ih
      · refine .inr ⟨h1, h2 ++ [(t, .use c)], t', i, by rw [e1]; simp, fun x hx => ?_, e3⟩
        rcases List.mem_append.mp hx with hx | hx
        · exact e2 x hx
        · rw [List.mem_singleton] at hx; subst hx; simp
    | certify i =>
      refine .inr ⟨h, [], t, i, rfl, by simp, ?_⟩
      show (certifyMap (certifyingAfter E h) i).data = _
      rw [certifyMap_data, certifyingAfter_app]

/-- C129: whatever delegation the IC's check accepts for the canister, from whatever source, stems from the map that was certified last:
the canister put its pair there itself, or a login did, for the delegation's session key and with its expiration, by an address whose
identity has the key, under the settings then in force; or SHA-256 collides: on strings hashed in the presented and the certified tree, on
the seeds, or on strings hashed for the two delegations. -/
theorem C129_only_puts_verify (E : Env) (h : CertifyingHistory) (cid cert key : Bytes) (sd : SignedDelegation)
    (hv : Verifies E cid (certifyingAfter E h).data cert key sd) :
    ∃ h1 h2 t i, h = h1 ++ (t, .certify i) :: h2 ∧ (∀ x ∈ h2, x.2 ≠ .install) ∧
      ((∃ before e after, libTrace E (usesOf h1) = before ++ e :: after ∧ SameMap i after ∧
          ((∃ sh dh seed, e.call = .put i sh dh ∧ readCanisterKey key = some (cid, seed) ∧ sh = E.sha256 seed ∧
              IsDelegationHash E sd.delegation dh) ∨
            ∃ addr key' cid' nonce ld s seed, e.LogsIn i addr key' cid' nonce ld ∧ ConfiguredWith before s ∧ IsSeed E s addr seed ∧
              ((readCanisterKey key = some (cid, seed.bytes) ∧ sd.delegation = ⟨key', ld.expiration, s.targets⟩) ∨
                (∃ seed', readCanisterKey key = some (cid, seed') ∧ Collision E.sha256 seed.bytes seed') ∨
                ∃ x y, DelegationPreimage E (granted s key' ld.expiration) x ∧ DelegationPreimage E sd.delegation y ∧
                  Collision E.sha256 x y))) ∨
        ∃ tree x y, readSignature sd.signature = some (cert, tree) ∧ Hashes E tree x ∧
          Hashes E (certifiedTree ((appAfter E (usesOf h1)).maps i)) y ∧ Collision E.sha256 x y) := by
  obtain ⟨seed, tree, dh, a1, a2, a3, a4, a5, a6⟩ := hv
  rcases certifying_origin E h with h0 | ⟨h1, h2, t, i, g1, g2, g3⟩
  · rw [h0] at a4
    have := congrArg List.length a4
    rw [Hash.len] at this
    cases this
  refine ⟨h1, h2, t, i, g1, g2, ?_⟩
  rw [g3] at a4
  rcases C31_no_forgery_by_lookup E _ tree _ _ _ (Hash.ext' a4) a6 with ⟨_, sh, dh', b1, b2, hh⟩ | ⟨x, y, hx, hy, hc⟩
  · left
    have b1 := Hash.ext' b1
    have b2 := Hash.ext' b2
    subst b1; subst b2
    obtain ⟨before, e, after, c1, c2, c3, _⟩ := C87_pairs_come_from_puts E (usesOf h1) i _ _ hh
    refine ⟨before, e, after, c1, c2, ?_⟩
    rcases c3 with c3 | ⟨addr, key', cid', nonce, ld, s, k1, k2, ⟨seed', k3, k4⟩, k5⟩
    · exact .inl ⟨_, _, seed, c3, a1, rfl, a5⟩
    · refine .inr ⟨addr, key', cid', nonce, ld, s, seed', k1, k2, k3, ?_⟩
      by_cases hse : seed = seed'.bytes
      · subst hse
        rcases delegation_inj k5 a5 with hd | ⟨p, q, hp, hq, hcol⟩
        · exact .inl ⟨a1, hd.symm⟩
        · exact .inr (.inr ⟨p, q, hp, hq, hcol⟩)
      · exact .inr (.inl ⟨seed, a1, fun z => hse z.symm, k4.symm⟩)
  · exact .inr ⟨tree, x, y, a2, hx, hy, hc⟩

namespace Ex
/-- The login of `libLoggedIn`, after which the canister certifies map 7; then something happens on another map. -/
def certifying : CertifyingHistory :=
  libLoggedIn.map (fun x => (x.1, .use x.2)) ++ (100, .certify 7) :: [(101, .use (.newMap 8)), (102, .use (.prepareLogin alice))]
end Ex

/-- Non-vacuity: the canister serves the delegation, it verifies, and the hypotheses of `C129_certified_maps_verify` and
`C129_only_puts_verify` hold. -/
example : ∃ sd, serve (certifyingAfter Toy.env Ex.certifying) 200 7 [7] Ex.alice Ex.key 1800000000005 = some sd ∧
    Verifies Toy.env [9, 9] (certifyingAfter Toy.env Ex.certifying).data [7]
      (createUserCanisterPubkey [9, 9] (Toy.env.sha256 (identityString (ascii "s") Ex.alice none)).bytes) sd := by
  have h : (serve (certifyingAfter Toy.env Ex.certifying) 200 7 [7] Ex.alice Ex.key 1800000000005).isSome = true := by decide +kernel
  obtain ⟨sd, hsd⟩ := Option.isSome_iff_exists.mp h
  refine ⟨sd, hsd, ?_⟩
  refine C129_certified_maps_verify Toy.env _ _ 100 200 7 [9, 9] [7] Ex.alice Ex.key 1800000000005 sd Ex.libCfg _ ?_ hsd (by decide) (by decide)
    ((configured_iff Toy.env _ _).mpr (by decide +kernel)) (.inr ⟨?_, rfl⟩)
  · intro x hx
    simp only [List.mem_cons, List.not_mem_nil, or_false] at hx
    rcases hx with rfl | rfl
    · exact ⟨_, rfl, by simp [UsesMap]⟩
    · exact ⟨_, rfl, by simp [UsesMap]⟩
  · rintro ⟨fs, hfs, _⟩
    cases hfs

/-- Without certifying after a login, what is served does not verify: certified data is that of the map before. -/
example : (certifyingAfter Toy.env (Ex.libLoggedIn.map (fun x => (x.1, .use x.2)))).data = [] := by decide +kernel

end Siwe
