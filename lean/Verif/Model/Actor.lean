import Verif.Model.Basic
/-
packages/ic_siwe_js/src/siwe-provider.ts:16-37 `createAnonymousActor`: which canister the client calls, and under which key it checks the
answers.

An options object is a function from property names to values, `none` for properties it does not have; a spread (`...o`) copies the
properties, the later ones over the earlier ones.  `process.env` is what the app's bundler puts in its place; where it puts nothing, there is
no `process` in a browser and reading it throws.  Of the agent library: `HttpAgent.create` checks answers under the key of the Internet
Computer that is built in or, with `shouldFetchRootKey`, under the key that the host it is connected to states; `Actor.createActor` calls the
canister and uses the agent named in its options.  Not modelled: the other options.
-/
namespace Siwe

/-- The values in options objects. -/
inductive JsValue where
  | undefined
  | bool (b : Bool)
  | text (t : Bytes)
  /-- the agent made by `createAnonymousActor` -/
  | newAgent
  /-- any other object -/
  | other (n : Nat)
  deriving DecidableEq

/-- An options object. -/
abbrev JsObject := Bytes → Option JsValue

/-- `{ ...a, ...b }` -/
def spread (a b : JsObject) : JsObject := fun k => match b k with | some v => some v | none => a k

/-- `{ name: value }` -/
def property (name : Bytes) (value : JsValue) : JsObject := fun k => if k = name then some value else none

/-- Spreading `undefined` copies nothing. -/
def orEmpty : Option JsObject → JsObject
  | some o => o
  | none => fun _ => none

/-- siwe-provider.ts:27, `process.env.DFX_NETWORK !== "ic"`; `network` is `none` if there is no `process`, `some none` if the variable is not
set -/
def shouldFetchRootKey (network : Option (Option Bytes)) : Option Bool :=
  match network with
  | none => none
  | some v => some (decide (v ≠ some (ascii "ic")))

/-- siwe-provider.ts:28-31, the options of the agent -/
def agentOptions (fetch : Bool) (httpAgentOptions : Option JsObject) : JsObject :=
  spread (orEmpty httpAgentOptions) (property (ascii "shouldFetchRootKey") (.bool fetch))

/-- siwe-provider.ts:32-36, the options of the actor -/
def actorConfig (canisterId : Bytes) (actorOptions : Option JsObject) : JsObject :=
  spread (spread (property (ascii "agent") .newAgent) (property (ascii "canisterId") (.text canisterId))) (orEmpty actorOptions)

/-- siwe-provider.ts:16-37 `createAnonymousActor`: the options of the agent and of the actor; `none` if it throws -/
def createAnonymousActor (network : Option (Option Bytes)) (canisterId : Bytes) (httpAgentOptions actorOptions : Option JsObject) :
    Option (JsObject × JsObject) :=
  match shouldFetchRootKey network with
  | none => none
  | some fetch => some (agentOptions fetch httpAgentOptions, actorConfig canisterId actorOptions)

/-- @dfinity/agent `HttpAgent.create`: the key answers are checked under; `icKey` is the one the agent is made with, which is the Internet
Computer's that is built in (or the app's own choice, in versions of the library that have an option for it) -/
def rootKeyUsed (icKey hostKey : Bytes) (options : JsObject) : Bytes :=
  match options (ascii "shouldFetchRootKey") with
  | some (.bool true) => hostKey
  | _ => icKey

end Siwe
