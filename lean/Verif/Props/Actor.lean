import Verif.Spec.Actor
/-
C143: the client calls the configured canister and believes only the Internet Computer.
-/
namespace Siwe
open Spec

theorem agent_key (icKey hostKey : Bytes) (fetch : Bool) (o : Option JsObject) :
    rootKeyUsed icKey hostKey (agentOptions fetch o) = if fetch then hostKey else icKey := by
  cases fetch <;> simp [rootKeyUsed, agentOptions, spread, property]

/-- C143: in an app built for the Internet Computer the client accepts an answer, whatever the app's options and whatever host it is
connected to, exactly if it is certified under the Internet Computer's key.

Missing: apps built otherwise, see `C143_believes_the_host`. -/
theorem C143_only_certified_partial (network : Option (Option Bytes)) (canisterId : Bytes) (http opts : Option JsObject)
    (agent actor : JsObject) (h : createAnonymousActor network canisterId http opts = some (agent, actor)) (hn : BuiltForIc network)
    (certified : Bytes → Bytes → Prop) (icKey hostKey answer : Bytes) :
    Accepts certified icKey hostKey agent answer ↔ certified icKey answer := by
  unfold BuiltForIc at hn
  subst hn
  obtain ⟨rfl, _⟩ := Prod.mk.inj (Option.some.inj h)
  unfold Accepts
  rw [agent_key]
  simp

/-- C143: in all other apps, in particular where the variable is not set, it believes whatever the host it is connected to certifies, even if
the app's options say not to fetch the key. -/
theorem C143_believes_the_host (v : Option Bytes) (hv : ¬BuiltForIc (some v)) (canisterId : Bytes) (http opts : Option JsObject) :
    ∃ agent actor, createAnonymousActor (some v) canisterId http opts = some (agent, actor) ∧
      ∀ (certified : Bytes → Bytes → Prop) (icKey hostKey answer : Bytes),
        Accepts certified icKey hostKey agent answer ↔ certified hostKey answer := by
  have hv' : v ≠ some (ascii "ic") := fun h => hv (congrArg some h)
  refine ⟨_, _, rfl, fun certified icKey hostKey answer => ?_⟩
  unfold Accepts
  rw [agent_key]
  simp [hv']

/-- C143: where there is no `process`, every call of the canister fails; otherwise there is an actor. -/
theorem C143_throws (network : Option (Option Bytes)) (canisterId : Bytes) (http opts : Option JsObject) :
    createAnonymousActor network canisterId http opts = none ↔ network = none := by
  unfold createAnonymousActor shouldFetchRootKey
  cases network <;> simp

theorem actor_property (canisterId name : Bytes) (value : JsValue) (opts : Option JsObject) :
    actorConfig canisterId opts name = some value ↔
      Sets opts name value ∨ LeavesOut opts name ∧
        (name = ascii "canisterId" ∧ value = .text canisterId ∨ name = ascii "agent" ∧ value = .newAgent) := by
  have hne : ascii "agent" ≠ ascii "canisterId" := by decide
  have base : spread (property (ascii "agent") .newAgent) (property (ascii "canisterId") (.text canisterId)) name = some value ↔
      name = ascii "canisterId" ∧ value = .text canisterId ∨ name = ascii "agent" ∧ value = .newAgent := by
    unfold spread property
    by_cases h1 : name = ascii "canisterId"
    · subst h1
      simp [hne.symm, eq_comm]
    · by_cases h2 : name = ascii "agent"
      · subst h2; simp [h1, eq_comm]
      · simp [h1, h2]
  unfold actorConfig
  cases opts with
  | none =>
    rw [show spread (spread (property (ascii "agent") .newAgent) (property (ascii "canisterId") (.text canisterId))) (orEmpty none) =
      spread (property (ascii "agent") .newAgent) (property (ascii "canisterId") (.text canisterId)) from rfl,
      base]
    simp [Sets, LeavesOut]
  | some o =>
    cases ho : o name with
    | none =>
      rw [show spread (spread (property (ascii "agent") .newAgent) (property (ascii "canisterId") (.text canisterId))) (orEmpty (some o)) name =
        spread (property (ascii "agent") .newAgent) (property (ascii "canisterId") (.text canisterId)) name by
          simp [spread, orEmpty, ho], base]
      simp [Sets, LeavesOut, ho]
    | some w =>
      rw [show spread (spread (property (ascii "agent") .newAgent) (property (ascii "canisterId") (.text canisterId))) (orEmpty (some o)) name =
        some w by simp [spread, orEmpty, ho]]
      simp [Sets, LeavesOut, ho]

/-- C143: the actor calls the canister the manager was made for, with the agent described above, exactly if the app's options for actors
name no other.

Missing: options that do, as the type of these options asks for a canister id; see `C143_another_canister`. -/
theorem C143_configured_canister_partial (network : Option (Option Bytes)) (canisterId : Bytes) (http opts : Option JsObject)
    (agent actor : JsObject) (h : createAnonymousActor network canisterId http opts = some (agent, actor)) :
    (actor (ascii "canisterId") = some (.text canisterId) ↔
      LeavesOut opts (ascii "canisterId") ∨ Sets opts (ascii "canisterId") (.text canisterId)) ∧
    (actor (ascii "agent") = some .newAgent ↔ LeavesOut opts (ascii "agent") ∨ Sets opts (ascii "agent") .newAgent) := by
  have ha : actor = actorConfig canisterId opts := by
    cases network with
    | none => cases h
    | some v => exact (Prod.mk.inj (Option.some.inj h)).2.symm
  subst ha
  have hne : ascii "agent" ≠ ascii "canisterId" := by decide
  rw [actor_property, actor_property]
  constructor
  · simp [or_comm]
  · simp [or_comm]

/-- C143: with a canister id in the options for actors, the client calls that canister. -/
theorem C143_another_canister (v : Option Bytes) (canisterId other : Bytes) (http : Option JsObject) (o : JsObject)
    (ho : o (ascii "canisterId") = some (.text other)) :
    ∃ agent actor, createAnonymousActor (some v) canisterId http (some o) = some (agent, actor) ∧
      actor (ascii "canisterId") = some (.text other) :=
  ⟨_, _, rfl, (actor_property _ _ _ _).mpr (.inl ⟨o, rfl, ho⟩)⟩

/-- Non-vacuity: an app built for the Internet Computer that sets a host; and one for which the variable is not set, with options that say not
to fetch the key. -/
example :
    (∃ agent actor, createAnonymousActor (some (some (ascii "ic"))) [1] (some (property (ascii "host") (.text (ascii "https://icp-api.io")))) none =
      some (agent, actor) ∧ actor (ascii "canisterId") = some (.text [1]) ∧ rootKeyUsed [7] [8] agent = [7]) ∧
    (∃ agent actor, createAnonymousActor (some none) [1] (some (property (ascii "shouldFetchRootKey") (.bool false))) none =
      some (agent, actor) ∧ rootKeyUsed [7] [8] agent = [8]) := by
  refine ⟨⟨_, _, rfl, ?_, ?_⟩, ⟨_, _, rfl, ?_⟩⟩
  · decide
  · rw [agent_key]; decide
  · rw [agent_key]; decide

end Siwe
