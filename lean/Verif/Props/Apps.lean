import Verif.Props.LoginHistory
import Verif.Props.Requests
import Verif.Props.Encoding
import Verif.Spec.Apps
/-
C92: apps with providers of their own share neither identities nor sign-ins.
-/
namespace Siwe
open Spec

/-- The key a login returns names the canister. -/
theorem login_key_reads {E : Env} {h : History} {now : UInt64} {sig addr key nonce : Bytes} {d : LoginDetails}
    (hr : (step (stateAfter E h) now (.login sig addr key nonce)).2 = .loggedIn d) :
    ∃ seed, readCanisterKey d.userCanisterPubkey = some (E.canisterId, seed) := by
  obtain ⟨_, _, _, _, _, _, _, _, s, _, _, _, _, _, _, _, _, _, _, _, _, _, _, e1⟩ := login_success hr
  rw [e1]
  exact ⟨_, C25_key_reads_back _ _ E.canisterId_len (Hash.len _)⟩

/-- C92: two provider canisters with different ids, in any histories and with any settings — the same salt, the same URI — never give
the same public key to any users, not even to the same account, and never the same principal but for a collision of SHA-224. -/
theorem C92_identities_differ (E E' : Env) (h h' : History) (now now' : UInt64)
    (sig sig' addr addr' key key' nonce nonce' : Bytes) (d d' : LoginDetails) (hid : E.canisterId ≠ E'.canisterId)
    (hsha : E.sha224 = E'.sha224)
    (hr : (step (stateAfter E h) now (.login sig addr key nonce)).2 = .loggedIn d)
    (hr' : (step (stateAfter E' h') now' (.login sig' addr' key' nonce')).2 = .loggedIn d') :
    d.userCanisterPubkey ≠ d'.userCanisterPubkey ∧
      (principalOfKey E d.userCanisterPubkey ≠ principalOfKey E' d'.userCanisterPubkey ∨
        Collision E.sha224 d.userCanisterPubkey d'.userCanisterPubkey) := by
  obtain ⟨seed, g⟩ := login_key_reads hr
  obtain ⟨seed', g'⟩ := login_key_reads hr'
  have hne : d.userCanisterPubkey ≠ d'.userCanisterPubkey := by
    intro he
    rw [he, g'] at g
    exact hid (congrArg Prod.fst (Option.some.inj g)).symm
  refine ⟨hne, ?_⟩
  by_cases hp : principalOfKey E d.userCanisterPubkey = principalOfKey E' d'.userCanisterPubkey
  · right
    refine ⟨hne, ?_⟩
    simp only [principalOfKey, ← hsha, List.append_cancel_right_eq] at hp
    generalize E.sha224 d.userCanisterPubkey = x at hp ⊢
    generalize E.sha224 d'.userCanisterPubkey = y at hp ⊢
    cases x; cases y; simp_all
  · exact .inl hp

/-- C92: no other canister can sign for the key a login returned, whatever it certifies. -/
theorem C92_no_other_canister_signs (E : Env) (h : History) (now : UInt64) (sig addr key nonce : Bytes) (d : LoginDetails)
    (hr : (step (stateAfter E h) now (.login sig addr key nonce)).2 = .loggedIn d)
    (other data cert m s : Bytes) (hs : CanisterSigned E other data cert d.userCanisterPubkey m s) : other = E.canisterId := by
  obtain ⟨seed, g⟩ := login_key_reads hr
  obtain ⟨seed', _, g', _⟩ := hs
  rw [g] at g'
  exact (congrArg Prod.fst (Option.some.inj g')).symm

theorem asksFor_of_siweText {f : Shown} {text : Bytes} (h : IsSiweText f text) : AsksFor f.domain text := by
  obtain ⟨v, c, i, x, _, _, _, _, e⟩ := h
  refine ⟨f.address ++ ascii "\n\n"
      ++ f.statement ++ ascii "\n\n"
      ++ ascii "URI: " ++ f.uri ++ ascii "\n"
      ++ ascii "Version: " ++ v ++ ascii "\n"
      ++ ascii "Chain ID: " ++ c ++ ascii "\n"
      ++ ascii "Nonce: " ++ f.nonce ++ ascii "\n"
      ++ ascii "Issued At: " ++ i ++ ascii "\n"
      ++ ascii "Expiration Time: " ++ x, ?_⟩
  rw [e]
  simp only [List.append_assoc]

theorem asksFor_unique {a b text : Bytes} (ha : OneLine a) (hb : OneLine b) (h : AsksFor a text) (h' : AsksFor b text) : a = b := by
  obtain ⟨x, h⟩ := h
  obtain ⟨y, h'⟩ := h'
  have e : ascii " wants you to sign in with your Ethereum account:\n" =
      ascii " wants you to sign in with your Ethereum account:" ++ ascii "\n" := by decide
  have hw : OneLine (ascii " wants you to sign in with your Ethereum account:") := by unfold OneLine; decide
  rw [h, e, ← List.append_assoc, ← List.append_assoc] at h'
  have := (split_line (oneLine_append.mpr ⟨ha, hw⟩) (oneLine_append.mpr ⟨hb, hw⟩) h').1
  exact List.append_cancel_right this

/-- C92: every text the canister issues asks for the domain configured then. -/
theorem C92_texts_name_the_domain (E : Env) (h : History) (before after : List Event) (e : Event) (addr nonce text : Bytes)
    (ht : trace E h = before ++ e :: after) (hi : e.Issues addr nonce text) :
    ∃ s p, InForce E before s p ∧ AsksFor s.domain text := by
  obtain ⟨h1, h2, e1, e2, e3, e4⟩ := traceFrom_split ht
  have ha := C89_answer E h1 e.time addr
  rw [← hi.1, show (step (stateAfter E h1) e.time e.call).2 = e.reply from e3.symm, hi.2,
    show trace E h1 = before from e2.symm] at ha
  cases ha with
  | prepared s p seed since _ _ k1 k2 k3 k4 k5 k6 => exact ⟨s, p, k2, asksFor_of_siweText k6⟩

/-- C92: a login proves that the account signed a text that asks for this app's domain, which is none of the texts that an app for
another domain issued, and is signed as another byte string. So what a user signs for one app does not sign them in to another. (Domains
have no line breaks.) -/
theorem C92_signed_for_this_app (E E' : Env) (h h' : History) (now : UInt64) (sig addr key nonce : Bytes) (d : LoginDetails)
    (s : Settings) (p : ProviderSettings) (hr : (step (stateAfter E h) now (.login sig addr key nonce)).2 = .loggedIn d)
    (hs : InForce E (trace E h) s p) (hone : OneLine s.domain) :
    ∃ text, (∃ i ∈ trace E h, ∃ addr' nonce', i.Issues addr' nonce' text) ∧ Signs E sig text addr ∧ AsksFor s.domain text ∧
      ∀ before e after addr' nonce' text' s' p', trace E' h' = before ++ e :: after → e.Issues addr' nonce' text' →
        InForce E' before s' p' → OneLine s'.domain → s'.domain ≠ s.domain →
        text ≠ text' ∧ ∀ signed, IsPersonalMessage text signed → ¬IsPersonalMessage text' signed := by
  obtain ⟨_, _, before, e, after, addr', nonce', text, s1, _, _, g1, g2, g3, _, g5, g6, _, g7, _⟩ := login_success hr
  have hs1 : s1 = s := Option.some.inj (g6.symm.trans (inForce_state hs).1)
  subst hs1
  obtain ⟨s2, p2, k1, k2⟩ := C92_texts_name_the_domain E h before after e addr' nonce' text g1 g3
  have hcarry : InForce E (trace E h) s2 p2 := by
    rw [g1]
    refine inForce_carry k1 fun x hx => ?_
    rcases List.mem_cons.mp hx with rfl | hx
    · rintro ⟨i, hc, _⟩
      rw [g3.1] at hc
      rcases hc with hc | hc <;> cases hc
    · exact g2 x hx
  have : s2 = s1 := Option.some.inj ((inForce_state hcarry).1.symm.trans g6)
  subst this
  refine ⟨text, ⟨e, by rw [g1]; simp, addr', nonce', g3⟩, g7, k2, fun b x a ad no text' s' p' q1 q2 q3 q4 q5 => ?_⟩
  obtain ⟨s3, p3, r1, r2⟩ := C92_texts_name_the_domain E' h' b a x ad no text' q1 q2
  obtain ⟨h1, h2, _, e2, _, _⟩ := traceFrom_split q1
  have : s3 = s' := by
    rw [e2] at q3 r1
    exact Option.some.inj ((inForce_state r1).1.symm.trans (inForce_state q3).1)
  subst this
  have hne : text ≠ text' := by
    rintro rfl
    exact q5 (asksFor_unique q4 hone r2 k2)
  exact ⟨hne, fun signed m1 m2 => hne (C07_spec_injective _ _ _ m1 m2)⟩

/-- Another app's provider: the same code and salt on another canister, for another domain. -/
def Ex.otherApp : Env := { Toy.env with canisterId := [9, 9], canisterId_len := by decide }

def Ex.otherAppPrepared : History :=
  [(1, .install { Ex.input with domain := ascii "other.com" }), (2, .rngSeeded [1, 2, 3]), (5, .prepareLogin Ex.alice)]

/-- Non-vacuity of C92: Alice logs in to both apps, with the same nonce even. -/
example :
    (∃ d d', (step (stateAfter Toy.env Ex.prepared) 100 (.login Ex.aliceSig Ex.alice Ex.key (Ex.nonce 3))).2 = .loggedIn d ∧
      (step (stateAfter Ex.otherApp Ex.otherAppPrepared) 100 (.login Ex.aliceSig Ex.alice Ex.key (Ex.nonce 3))).2 = .loggedIn d') ∧
    OneLine Ex.input.domain ∧ OneLine (ascii "other.com") ∧ Ex.input.domain ≠ ascii "other.com" ∧
    Toy.env.canisterId ≠ Ex.otherApp.canisterId := by
  refine ⟨⟨⟨1800000000005, createUserCanisterPubkey Toy.env.canisterId
      (Toy.env.sha256 (identityString (ascii "s") Ex.alice none)).bytes⟩, ⟨1800000000005, createUserCanisterPubkey [9, 9]
      (Toy.env.sha256 (identityString (ascii "s") Ex.alice none)).bytes⟩, ?_, ?_⟩, ?_, ?_, ?_, ?_⟩
  · decide +kernel
  · decide +kernel
  · unfold OneLine; decide
  · unfold OneLine; decide
  · decide
  · decide

end Siwe
