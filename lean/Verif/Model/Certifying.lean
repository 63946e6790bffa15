import Verif.Model.Embedding
import Verif.Model.Provider
/-
A canister that embeds the library and serves delegations: it sets its certified data itself, as packages/ic_siwe/README.md:142-148 asks of
implementing canisters, and builds the signature as the provider does, which is named there as the example to follow.
-/
namespace Siwe

/-- The library and the signature maps, and the canister's certified data. -/
structure CertifyingState (E : Env) where
  app : AppState E
  data : Bytes

/-- A new installation; a use of the library, where `restart` is an upgrade, which keeps the certified data; or the canister certifies one
of its signature maps. -/
inductive CertifyingCall where
  | install
  | use (c : LibCall)
  | certify (map : Nat)
  deriving DecidableEq

/-- packages/ic_siwe_provider/src/lib.rs:105-111 `update_root_hash`, for one of the maps; no assets -/
def certifyMap {E : Env} (s : CertifyingState E) (i : Nat) : CertifyingState E :=
  { s with data := (forkHash E (labeledHash E labelAssets (assetsRootHash E)) (labeledHash E labelSig ((s.app.maps i).rootHash E))).bytes }

/-- One call at time `now`. -/
def certifyingStep {E : Env} (s : CertifyingState E) (now : UInt64) : CertifyingCall → CertifyingState E
  | .install => ⟨.fresh E, []⟩
  | .use c => { s with app := (appStep s.app now c).1 }
  | .certify i => certifyMap s i

/-- Timed calls, oldest first. -/
abbrev CertifyingHistory := List (UInt64 × CertifyingCall)

/-- The state after some calls. -/
def certifyingRun {E : Env} (s : CertifyingState E) : CertifyingHistory → CertifyingState E
  | [] => s
  | (now, c) :: rest => certifyingRun (certifyingStep s now c) rest

/-- ... of a new canister. -/
def certifyingAfter (E : Env) (h : CertifyingHistory) : CertifyingState E := certifyingRun ⟨.fresh E, []⟩ h

/-- packages/ic_siwe_provider/src/service/siwe_get_delegation.rs:33-69, serving the delegation of an address and session key from one of the
maps; nothing if the library has an error -/
def serve {E : Env} (s : CertifyingState E) (now : UInt64) (i : Nat) (certificate address sessionKey : Bytes) (expiration : UInt64) :
    Option SignedDelegation :=
  match appWitness s.app now i address sessionKey expiration with
  | .witness d w => some ⟨d, createCertifiedSignature certificate
      (.fork (.pruned (labeledHash E labelAssets (assetsRootHash E))) (.labeled labelSig w))⟩
  | _ => none

end Siwe
