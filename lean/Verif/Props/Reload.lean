import Verif.Lemmas.IdentityJson
import Verif.Props.Json
/-
C106: reloading the page keeps the session, with @dfinity/identity's own JSON forms.
-/
namespace Siwe
open Spec IdentityJson

/-- C106: the library's JSON form of a delegation chain is read back as the same chain if both its keys and its signature have at
least 32 bytes; otherwise reading it throws. -/
theorem C106_chain_restored (P : KeyPairs) (c : Chain) :
    (LongEnough c → (identityLib P).chainFromJson ((identityLib P).chainToJson c).text = some c) ∧
    (¬LongEnough c → (identityLib P).chainFromJson ((identityLib P).chainToJson c).text = none) := by
  simp only [identityLib, chain_back, LongEnough]
  exact ⟨fun x => if_pos x, fun x => if_neg x⟩

/-- C106: the library's JSON form of a session identity is read back as the same identity. -/
theorem C106_key_restored (P : KeyPairs) (K : SessionKeys) (sessions : List Nat) (hP : GeneratedKeys P K sessions) (n : Nat)
    (hn : n ∈ sessions) : (identityLib P).keyFromJson ((identityLib P).keyToJson n).text = some n := by
  simp only [identityLib, key_back hP hn]

/-- C106: no chain the canister has given a page is too short for the library, if the session keys are not. -/
theorem C106_long_enough (E : Env) (K : SessionKeys) (hK : ∀ n, 32 ≤ (K n).length) (calls : History) (log : List Output) (a : Bytes)
    (i : Identity) (h : Obtained E K calls log a i) : LongEnough i.chain := obtained_long (hK _) h

/-- C106: what is saved after a login is read back: the same account, session and chain. -/
theorem C106_saved_is_loaded (E : Env) (P : KeyPairs) (K : SessionKeys) (calls : History) (log : List Output)
    (hP : GeneratedKeys P K (sentSessions log)) (s : Stored) (h : Obtained E K calls log s.address ⟨s.session, s.chain⟩) :
    loadIdentity (identityLib P) (some (saveIdentity (identityLib P) s)) = some (.str s.address, ⟨s.session, s.chain⟩) := by
  have hn : s.session ∈ sentSessions log := obtained_sent h
  have hl : LongEnough s.chain := obtained_long (i := ⟨s.session, s.chain⟩)
    (by rw [(hP _ hn).2.2.2, List.length_append, (hP _ hn).1]; decide) h
  rw [C85_which_texts]
  refine ⟨_, rfl, _, (identityLib P).keyToJson s.session, (identityLib P).chainToJson s.chain,
    (Json.parse_iff _ _).1 (Json.parse_text ?_), ⟨[], _, rfl, by simp; decide⟩, by simp [Falsy, obtained_address h],
    ⟨[_], _, rfl, by simp; decide⟩, not_falsy_shape (.inl ⟨_, rfl⟩), ⟨[_, _], _, rfl, by simp⟩, not_falsy_shape (.inr ⟨_, rfl⟩),
    C106_key_restored P K _ hP _ hn, (C106_chain_restored P _).1 hl⟩
  simp only [Json.Grammatical, Json.GrammaticalFields]
  exact ⟨trivial, grammatical_key _ _, grammatical_chain _, trivial⟩

theorem loads_obtained {E : Env} {P : KeyPairs} {K : SessionKeys} {calls : History} {log : List Output}
    (hP : GeneratedKeys P K (sentSessions log)) (o : Option Stored)
    (ho : ∀ s, o = some s → Obtained E K calls log s.address ⟨s.session, s.chain⟩) :
    loadIdentity (identityLib P) (o.map (saveIdentity (identityLib P))) = o.map fun s => (.str s.address, ⟨s.session, s.chain⟩) := by
  cases o with
  | none => rfl
  | some s => exact C106_saved_is_loaded E P K calls log hP s (ho s rfl)

/-- C106: at any moment of any history of a browser with several tabs, a page that reads local storage's text gets the identity of the
last login in any tab, and none if there was no login or a tab signed out since. -/
theorem C106_loads_last_login (E : Env) (P : KeyPairs) (K : SessionKeys) (hs : List TabHappening)
    (hP : GeneratedKeys P K (sentSessions (browserAfter E K hs).log)) (o : Option Identity) (h : Standing E K hs o) :
    (loadIdentity (identityLib P) ((browserAfter E K hs).storage.map (saveIdentity (identityLib P)))).map (·.2) = o := by
  rw [loads_obtained hP _ (tabsOk E K hs).stored, ← standing_storage h, Option.map_map]
  rfl

/-- C106: at any moment of a page's history, what it displays is what it would display if it were loaded again from local storage's
text. -/
theorem C106_displays_what_is_stored (E : Env) (P : KeyPairs) (K : SessionKeys) (hs : List Happening)
    (hP : GeneratedKeys P K (sentSessions (worldAfter E K hs).log)) :
    loadIdentity (identityLib P) ((worldAfter E K hs).client.storage.map (saveIdentity (identityLib P))) =
      match (worldAfter E K hs).client.ctx.identityAddress, (worldAfter E K hs).client.ctx.identity with
      | some a, some i => some (.str a, i)
      | _, _ => none := by
  have x := (worldOk E K hs).ctx
  rw [loads_obtained hP _ x.stored, x.address, x.identity]
  cases (worldAfter E K hs).client.storage <;> rfl

/-! ### Non-vacuity -/

/-- Key pairs for sessions below 256. -/
def Ex.pairs : KeyPairs where
  pub n := List.replicate 32 (UInt8.ofNat n)
  priv n := List.replicate 31 0xAB ++ [UInt8.ofNat n]
  number pub _ := pub.head?.map (·.toNat)

/-- Their public keys. -/
def Ex.pairKeys : SessionKeys := fun n => wrapDer (Ex.pairs.pub n)

/-- Non-vacuity: a page in which somebody has signed in; all session keys sent are such keys. -/
example : sentSessions (worldAfter Toy.env Ex.pairKeys Ex.signIn).log = [0] ∧ GeneratedKeys Ex.pairs Ex.pairKeys [0] ∧
    ((worldAfter Toy.env Ex.pairKeys Ex.signIn).client.ctx.identity.map fun i => (i.session, i.chain.delegation.pubkey)) =
      some (0, Ex.pairKeys 0) ∧
    sentSessions (browserAfter Toy.env Ex.pairKeys Ex.tabSignedIn).log = [0] := by
  refine ⟨by decide +kernel, fun n hn => ?_, by decide +kernel, by decide +kernel⟩
  rw [List.mem_singleton] at hn
  subst hn
  decide

/-- The text of a chain with a target; and a chain whose signature is too short. -/
example : (chainToJson ⟨⟨[48, 255], 255, some [[0xAB]]⟩, [1], [2]⟩).text = ascii ("{\"delegations\":[{\"delegation\":{" ++
      "\"expiration\":\"ff\",\"pubkey\":\"30ff\",\"targets\":[\"AB\"]},\"signature\":\"01\"}],\"publicKey\":\"02\"}") ∧
    LongEnough ⟨⟨List.replicate 32 7, 255, some [[0xAB]]⟩, List.replicate 33 8, List.replicate 32 9⟩ ∧
    ¬LongEnough ⟨⟨List.replicate 32 7, 255, some [[0xAB]]⟩, List.replicate 31 8, List.replicate 32 9⟩ ∧
    (keyToJson Ex.pairs 0).text = ascii ("[\"302a300506032b6570032100" ++ "0000000000000000000000000000000000000000000000000000000000000000" ++
      "\",\"ababababababababababababababababababababababababababababababab00\"]") :=
  ⟨by decide +kernel, by unfold LongEnough; decide, by unfold LongEnough; decide, by decide +kernel⟩

end Siwe
