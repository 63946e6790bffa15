import Verif.Model.CandidWire
import Verif.Model.StableCanister
/-
The canister as deployed: messages come in as bytes (Model/CandidWire.lean) and the mappings lie in stable memory as B-trees
(Model/StableCanister.lean).
-/
namespace Siwe.StableBTree
open Candid Wire

/-- One message (packages/ic_siwe_provider/src/service/*.rs, the `#[update]`, `#[query]`, `#[init]` and `#[post_upgrade]` functions): what
cannot be read traps before any of the code runs. -/
def stepBytes {E : Env} (c : Canister E) (now : UInt64) (m : RawMessage) : Canister E × Reply :=
  match receiveRaw m with
  | some op => step c now op
  | none => (c, .trap)

/-- Messages one after the other. -/
def runBytes {E : Env} (c : Canister E) : List (UInt64 × RawMessage) → Canister E × List Reply
  | [] => (c, [])
  | (now, m) :: rest =>
    let (c', r) := stepBytes c now m
    let (c'', rs) := runBytes c' rest
    (c'', r :: rs)

end Siwe.StableBTree
