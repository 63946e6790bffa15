import Verif.Model.Host
import Verif.Model.Secp256k1
import Verif.Model.PrincipalText
import Verif.Model.Der
import Verif.Concrete.Hashes
import Verif.Concrete.ChaCha
/-
The parameters of the model instantiated with the functions the code really calls.  Hashes, key recovery, the random
number generator and the text form of principals are complete; the DER parser takes any contents of texts and dates, and
of internationalised hosts those in ASCII (`xn--`) are accepted unchecked and others refused, as are those of `file:` URLs.
-/
namespace Siwe.Concrete

/-- The code's own functions; the canister has the given principal (at most 29 bytes of it are used). -/
def env (canister : Bytes) : Env where
  sha256 := sha256
  sha224 m := ⟨(sha224 m ++ List.replicate 28 0).take 28, by simp⟩
  keccak := keccak
  sigOk := Secp.sigOk
  recoverKey := Secp.recoverKey
  derOk := Der.fromDer fun _ _ => true
  urlParse := urlParse (Host.parser (fun d => if d.all (fun c => decide (c < 128)) then some (d.map toLower) else none) fun _ => none)
  principalFromText := PrincipalText.fromText
  Rng := ChaChaRng
  rngFromSeed seed := ⟨seed, 0⟩
  rngFill10 := ChaChaRng.fill10
  canisterId := canister.take 29
  canisterId_len := by simp; omega

end Siwe.Concrete
