import Verif.Props.Embedding
import Verif.Props.Encoding
import Verif.Spec.Sites
/- Property C128: one canister for several sites. -/
namespace Siwe
open Spec

/-- The settings in force are among those `init` was called with. -/
theorem configured_mem {E : Env} {h : LibHistory} {s : Settings} (hc : ConfiguredWith (libTrace E h) s) :
    ∃ t, (t, LibCall.init s) ∈ h := by
  induction h using libHistory_induction with
  | nil => exact absurd hc not_configured_nil
  | snoc h now c ih =>
    rw [libTrace_snoc, configured_snoc] at hc
    rcases hc with hc | ⟨hc, _⟩
    · simp only at hc
      subst hc
      exact ⟨now, by simp⟩
    · obtain ⟨t, ht⟩ := ih hc
      exact ⟨t, by simp [ht]⟩

/-- C128: a login gives the address its identity at the site the canister is configured for when the login comes in. -/
theorem C128_identity_of_the_configured_site (E : Env) (salt : Bytes) (h : LibHistory) (now : UInt64) (i : Nat)
    (sig addr key cid nonce : Bytes) (d : LoginDetails) (hs : ServesSites salt h)
    (hr : (appStep (appAfter E h) now (.login i sig addr key cid nonce)).2 = .loggedIn d) :
    ∃ s, ConfiguredWith (libTrace E h) s ∧ d.userCanisterPubkey = identityAt E salt addr cid s.uri := by
  have hd := C86_login_decision E h now i sig addr key cid nonce
  rw [hr] at hd
  cases hd with
  | success m txt s seed _ h1 h2 h3 h4 h5 h6 h7 h8 h9 h10 h11 =>
    refine ⟨s, h7, ?_⟩
    obtain ⟨t, ht⟩ := configured_mem h7
    obtain ⟨u1, u2⟩ := hs t s ht
    rcases h9 with ⟨_, rfl⟩ | ⟨hn, _⟩
    · rw [h11, u2]; rfl
    · exact absurd u1 hn

/-- C128: identities at sites with different URIs differ, also those of different addresses, or the two identity strings are a
SHA-256 collision. -/
theorem C128_identities_differ (E : Env) (salt addr addr' cid uri uri' : Bytes) (ha : IsAddress E.keccak addr)
    (ha' : IsAddress E.keccak addr') (hc : cid.length ≤ 29) (hu : uri ≠ uri') :
    identityAt E salt addr cid uri ≠ identityAt E salt addr' cid uri' ∨
      Collision E.sha256 (identityString salt addr (some uri)) (identityString salt addr' (some uri')) := by
  by_cases he : identityAt E salt addr cid uri = identityAt E salt addr' cid uri'
  · right
    refine ⟨fun hi => ?_, ?_⟩
    · obtain ⟨_, _, e⟩ := identityString_inj_of_length rfl ((address_length ha).trans (address_length ha').symm) hi
      exact hu (Option.some.inj e)
    · have := congrArg readCanisterKey he
      unfold identityAt at this
      rw [C25_key_reads_back _ _ hc (Hash.len _), C25_key_reads_back _ _ hc (Hash.len _)] at this
      have := congrArg Prod.snd (Option.some.inj this)
      simp only at this
      generalize E.sha256 (identityString salt addr (some uri)) = x at this ⊢
      generalize E.sha256 (identityString salt addr' (some uri')) = y at this ⊢
      cases x; cases y; simp_all
  · exact .inl he

/-- C128: what was signed for one site signs in to every other: if a login is accepted, it is also accepted right after the
canister was configured for any other site, and gives the identity there. (The exception are settings that the builder refuses,
with which sessions last no time.) -/
theorem C128_accepted_at_every_site (E : Env) (salt : Bytes) (h : LibHistory) (t now : UInt64) (i : Nat)
    (sig addr key cid nonce : Bytes) (d : LoginDetails) (s : Settings)
    (hr : (appStep (appAfter E h) now (.login i sig addr key cid nonce)).2 = .loggedIn d)
    (hu : UsesUri s) (hsalt : s.salt = salt) (ht : s.sessionExpiresIn ≠ 0) :
    ∃ d', (appStep (appAfter E (h ++ [(t, .init s)])) now (.login i sig addr key cid nonce)).2 = .loggedIn d' ∧
      d'.userCanisterPubkey = identityAt E salt addr cid s.uri := by
  have hd := C86_login_decision E h now i sig addr key cid nonce
  rw [hr] at hd
  cases hd with
  | success m txt s0 seed _ h1 h2 h3 h4 h5 h6 h7 h8 h9 h10 h11 =>
    have hk : KeptUsable (appAfter E (h ++ [(t, .init s)])).lib now addr nonce m txt := by rw [appAfter_snoc]; exact h3
    have hc : ConfiguredWith (libTrace E (h ++ [(t, .init s)])) s := by
      rw [libTrace_snoc, configured_snoc]; exact .inl rfl
    refine ⟨⟨UInt64.ofNat (min (m.issuedAt.toNat + s.sessionExpiresIn.toNat) (2 ^ 64 - 1)), identityAt E salt addr cid s.uri⟩, ?_, rfl⟩
    refine C86_one_answer _ _ _ _ _ _ _ _ _ _ (C86_login_decision E (h ++ [(t, .init s)]) now i sig addr key cid nonce)
      (.success m txt s _ _ h1 h2 hk h4 h5 h6 hc (fun hz => ht hz.2) (.inl ⟨hu, rfl⟩) ?_ ?_)
    · rw [UInt64.toNat_ofNat']
      omega
    · subst hsalt; rfl

namespace Ex
/-- Two sites of one canister. -/
def siteA : Settings := { libCfg with domain := ascii "a.com", uri := ascii "http://a.com", runtimeFeatures := some [.includeUriInSeed] }
def siteB : Settings := { libCfg with domain := ascii "b.com", uri := ascii "http://b.com", runtimeFeatures := some [.includeUriInSeed] }
/-- Alice is at a.com; then somebody is at b.com. -/
def atB : LibHistory :=
  [(1, .restart), (2, .init siteA), (3, .rngSeeded [1, 2, 3]), (5, .init siteA), (5, .prepareLogin alice), (6, .init siteB)]
/-- Alice's login at b.com with what they signed for a.com. -/
def inAtB : LibReply := (appStep (appAfter Toy.env atB) 100 (.login 7 aliceSig alice key [9, 9] (nonce 3))).2
theorem atB_sites : ServesSites (ascii "s") atB := by
  intro t s h
  simp only [atB, List.mem_cons, Prod.mk.injEq, LibCall.init.injEq, reduceCtorEq, and_false, List.not_mem_nil, or_false, false_or] at h
  rcases h with ⟨_, rfl⟩ | ⟨_, rfl⟩ | ⟨_, rfl⟩ <;> exact ⟨⟨_, rfl, by decide⟩, rfl⟩
theorem inAtB_reply : inAtB = .loggedIn ⟨1800000000005, identityAt Toy.env (ascii "s") alice [9, 9] (ascii "http://b.com")⟩ := by
  decide +kernel
end Ex

/-- C128 is violated: the user signed a message for http://a.com, and the login gives their identity at http://b.com. So whoever
runs one of the sites can sign in to the others as any of its visitors. -/
theorem C128_not_separate : ¬SitesSeparate Toy.env := by
  intro hsep
  rcases hsep _ _ 100 7 Ex.aliceSig Ex.alice Ex.key [9, 9] (Ex.nonce 3) _ Ex.atB_sites Ex.inAtB_reply with
    ⟨uri, ⟨e, he, m, txt, hp, hu, _⟩, hk⟩ | ⟨e, he, addr', nonce', m, hp, bs, bs', h1, h2, hc, _⟩
  · have hm : e.reply = .prepared (SiweMessage.new Ex.siteA 5 ⟨Ex.alice⟩ (Ex.nonce 3)) (Ex.nonce 3) ∨ e.call ≠ .prepareLogin Ex.alice := by
      have : ∀ e ∈ libTrace Toy.env Ex.atB, e.reply = .prepared (SiweMessage.new Ex.siteA 5 ⟨Ex.alice⟩ (Ex.nonce 3)) (Ex.nonce 3) ∨
        e.call ≠ .prepareLogin Ex.alice := by decide +kernel
      exact this e he
    rcases hm with hm | hm
    · rw [hp.2] at hm
      obtain rfl := (LibReply.prepared.inj hm).1
      subst hu
      revert hk
      decide +kernel
    · exact hm hp.1
  · have : ∀ e ∈ libTrace Toy.env Ex.atB, (∃ a, e.call = .prepareLogin a) →
        e.call = .prepareLogin Ex.alice ∧ e.reply = .prepared (SiweMessage.new Ex.siteA 5 ⟨Ex.alice⟩ (Ex.nonce 3)) (Ex.nonce 3) := by
      intro e he
      simp only [libTrace, Ex.atB, libTraceFrom, List.mem_cons, List.not_mem_nil, or_false] at he
      rcases he with rfl | rfl | rfl | rfl | rfl | rfl <;> rintro ⟨a, ha⟩ <;> first | (cases ha; done) | exact ⟨rfl, by decide +kernel⟩
    obtain ⟨g1, g2⟩ := this e he ⟨_, hp.1⟩
    rw [hp.1] at g1
    rw [hp.2] at g2
    cases LibCall.prepareLogin.inj g1
    obtain ⟨_, rfl⟩ := LibReply.prepared.inj g2
    exact hc (by rw [spells_unique h1 h2])

/-- C128, partial: sign-ins are separate if the canister accepts a nonce only at the site where it was prepared, by comparing the
message's URI with the one it is configured for before it calls `login`. The library does not. -/
theorem C128_separate_partial (E : Env) (salt : Bytes) (h : LibHistory) (now : UInt64) (i : Nat)
    (sig addr key cid nonce : Bytes) (d : LoginDetails) (s : Settings) (hs : ServesSites salt h) (hc : ConfiguredWith (libTrace E h) s)
    (hcheck : ∀ e ∈ libTrace E h, ∀ m, e.Prepares addr nonce m → m.uri = s.uri)
    (hr : (appStep (appAfter E h) now (.login i sig addr key cid nonce)).2 = .loggedIn d) :
    (SignedAt E (libTrace E h) sig addr nonce s.uri ∧ d.userCanisterPubkey = identityAt E salt addr cid s.uri) ∨
      PreparedCollides E (libTrace E h) addr nonce := by
  obtain ⟨before, e, after, addr', nonce', m, txt, s1, s', g1, _, g3, g4, _, _, g7, g8, _⟩ :=
    C86_login_needs_a_signed_fresh_message E h now i sig addr key cid nonce d hr
  have he : e ∈ libTrace E h := by rw [g1]; simp
  rcases g4 with ⟨rfl, rfl⟩ | g4
  · left
    refine ⟨⟨e, he, m, txt, g3, hcheck e he m g3, g7, g8⟩, ?_⟩
    obtain ⟨s2, hs2, hk⟩ := C128_identity_of_the_configured_site E salt h now i sig _ key cid _ d hs hr
    rw [configured_unique hc hs2]
    exact hk
  · exact .inr ⟨e, he, addr', nonce', m, g3, g4⟩

/-- Non-vacuity: at a.com the same sign-in gives the identity there, and the hypotheses of `C128_accepted_at_every_site` and
`C128_separate_partial` hold; the two identities differ. -/
example :
    let h : LibHistory := [(1, .restart), (2, .init Ex.siteA), (3, .rngSeeded [1, 2, 3]), (5, .init Ex.siteA), (5, .prepareLogin Ex.alice)]
    (appStep (appAfter Toy.env h) 100 (.login 7 Ex.aliceSig Ex.alice Ex.key [9, 9] (Ex.nonce 3))).2 =
      .loggedIn ⟨1800000000005, identityAt Toy.env (ascii "s") Ex.alice [9, 9] (ascii "http://a.com")⟩ ∧
    (∀ e ∈ libTrace Toy.env h, ∀ m, e.Prepares Ex.alice (Ex.nonce 3) m → m.uri = Ex.siteA.uri) ∧ ConfiguredWith (libTrace Toy.env h) Ex.siteA ∧
    UsesUri Ex.siteB ∧ Ex.siteB.sessionExpiresIn ≠ 0 ∧
    identityAt Toy.env (ascii "s") Ex.alice [9, 9] (ascii "http://a.com") ≠ identityAt Toy.env (ascii "s") Ex.alice [9, 9] (ascii "http://b.com") := by
  refine ⟨by decide +kernel, ?_, (configured_iff Toy.env _ _).mpr (by decide +kernel), ⟨_, rfl, by decide⟩, by decide, by decide +kernel⟩
  intro e he m hp
  have : ∀ e ∈ libTrace Toy.env [(1, .restart), (2, .init Ex.siteA), (3, .rngSeeded [1, 2, 3]), (5, .init Ex.siteA),
      (5, .prepareLogin Ex.alice)], e.reply = .prepared (SiweMessage.new Ex.siteA 5 ⟨Ex.alice⟩ (Ex.nonce 3)) (Ex.nonce 3) ∨
      e.call ≠ .prepareLogin Ex.alice := by decide +kernel
  rcases this e he with hm | hm
  · rw [hp.2] at hm
    obtain rfl := (LibReply.prepared.inj hm).1
    rfl
  · exact absurd hp.1 hm

end Siwe
