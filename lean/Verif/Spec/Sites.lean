import Verif.Spec.Embedding
/-
A canister that signs users in to more than one site: it embeds the library and configures it for the site a user is at before
it handles a call.  As recommended (packages/ic_siwe_provider/README.md:140-144) it includes the URI in the seed, so that users
have another identity at every site.
-/
namespace Siwe.Spec

/-- The canister serves sites: every configuration includes the URI in the seed, and all have this salt. -/
def ServesSites (salt : Bytes) (h : LibHistory) : Prop := ∀ t s, (t, LibCall.init s) ∈ h → UsesUri s ∧ s.salt = salt

/-- The identity of an address at the site with this URI. -/
def identityAt (E : Env) (salt addr cid uri : Bytes) : Bytes :=
  createUserCanisterPubkey cid (E.sha256 (identityString salt addr (some uri))).bytes

/-- The address signed, with this signature, a message that was prepared for it with this nonce at the site with this URI. -/
def SignedAt (E : Env) (es : List LibEvent) (sig addr nonce uri : Bytes) : Prop :=
  ∃ e ∈ es, ∃ m txt, e.Prepares addr nonce m ∧ m.uri = uri ∧ IsSiweText (shown m) txt ∧ Signs E sig txt addr

/-- The storage keys of the address and nonce and of another prepared message collide. -/
def PreparedCollides (E : Env) (es : List LibEvent) (addr nonce : Bytes) : Prop :=
  ∃ e ∈ es, ∃ addr' nonce' m, e.Prepares addr' nonce' m ∧ KeyCollision E addr nonce addr' nonce'

/-- Sign-ins are separate: whoever logs in gets their identity at a site for which they signed a message. -/
def SitesSeparate (E : Env) : Prop :=
  ∀ (salt : Bytes) (h : LibHistory) (now : UInt64) (i : Nat) (sig addr key cid nonce : Bytes) (d : LoginDetails),
    ServesSites salt h → (appStep (appAfter E h) now (.login i sig addr key cid nonce)).2 = .loggedIn d →
    (∃ uri, SignedAt E (libTrace E h) sig addr nonce uri ∧ d.userCanisterPubkey = identityAt E salt addr cid uri) ∨
      PreparedCollides E (libTrace E h) addr nonce

end Siwe.Spec
