import Verif.Model.Env
/-
packages/ic_siwe/src/settings.rs.  A `Principal` is modelled by its byte string.
-/
namespace Siwe

/-- settings.rs:11-14 `RuntimeFeature` -/
inductive RuntimeFeature where
  | includeUriInSeed
  deriving DecidableEq

/-- settings.rs:26-58 `Settings` -/
structure Settings where
  domain : Bytes
  uri : Bytes
  salt : Bytes
  chainId : UInt32
  scheme : Bytes
  statement : Bytes
  signInExpiresIn : UInt64
  sessionExpiresIn : UInt64
  targets : Option (List Bytes)
  runtimeFeatures : Option (List RuntimeFeature)
  deriving DecidableEq

/-- The `Err(String)` values of settings.rs:180-265, one constructor per string. -/
inductive SettingsError where
  | invalidDomain
  | invalidUri
  | saltEmpty
  | invalidSalt
  | chainIdZero
  | invalidScheme
  | invalidStatement
  | signInZero
  | sessionZero
  | targetsEmpty
  | tooManyTargets
  | duplicateTargets
  deriving DecidableEq, Repr

/-- settings.rs:4-8 and 96-115 `SettingsBuilder::new` -/
def SettingsBuilder.new (domain uri salt : Bytes) : Settings where
  domain := domain
  uri := uri
  salt := salt
  chainId := 1
  scheme := ascii "https"
  statement := ascii "SIWE Fields:"
  signInExpiresIn := 60 * 5 * 1000000000
  sessionExpiresIn := 30 * 60 * 1000000000
  targets := none
  runtimeFeatures := none

/-- settings.rs:119-122 `chain_id` -/
def SettingsBuilder.chainId (b : Settings) (c : UInt32) : Settings := { b with chainId := c }

/-- settings.rs:126-129 `scheme` -/
def SettingsBuilder.scheme (b : Settings) (x : Bytes) : Settings := { b with scheme := x }

/-- settings.rs:133-136 `statement` -/
def SettingsBuilder.statement (b : Settings) (x : Bytes) : Settings := { b with statement := x }

/-- settings.rs:140-143 `sign_in_expires_in` -/
def SettingsBuilder.signInExpiresIn (b : Settings) (n : UInt64) : Settings := { b with signInExpiresIn := n }

/-- settings.rs:147-150 `session_expires_in` -/
def SettingsBuilder.sessionExpiresIn (b : Settings) (n : UInt64) : Settings := { b with sessionExpiresIn := n }

/-- settings.rs:154-157 `targets` -/
def SettingsBuilder.targets (b : Settings) (ts : List Bytes) : Settings := { b with targets := some ts }

/-- settings.rs:160-163 `runtime_features` -/
def SettingsBuilder.runtimeFeatures (b : Settings) (fs : List RuntimeFeature) : Settings :=
  { b with runtimeFeatures := some fs }

/-- A call of one of the builder's methods at settings.rs:117-163 -/
inductive BuilderCall where
  | chainId (c : UInt32)
  | scheme (x : Bytes)
  | statement (x : Bytes)
  | signInExpiresIn (n : UInt64)
  | sessionExpiresIn (n : UInt64)
  | targets (ts : List Bytes)
  | runtimeFeatures (fs : List RuntimeFeature)
  deriving DecidableEq

/-- settings.rs:117-163: what the call makes of the builder -/
def SettingsBuilder.call (b : Settings) : BuilderCall → Settings
  | .chainId c => SettingsBuilder.chainId b c
  | .scheme x => SettingsBuilder.scheme b x
  | .statement x => SettingsBuilder.statement b x
  | .signInExpiresIn n => SettingsBuilder.signInExpiresIn b n
  | .sessionExpiresIn n => SettingsBuilder.sessionExpiresIn b n
  | .targets ts => SettingsBuilder.targets b ts
  | .runtimeFeatures fs => SettingsBuilder.runtimeFeatures b fs

/-- settings.rs:180-188 `validate_domain`; `host_str().unwrap()` panics when there is no host -/
def validateDomain (E : Env) (scheme domain : Bytes) : Res SettingsError Unit :=
  match E.urlParse (scheme ++ ascii "://" ++ domain) with
  | none => .err .invalidDomain
  | some u =>
    if !u.hasAuthority then .err .invalidDomain
    else match u.hostStr with
      | none => .panic
      | some _ => .ok ()

/-- settings.rs:190-197 `validate_uri` -/
def validateUri (E : Env) (uri : Bytes) : Res SettingsError Unit :=
  match E.urlParse uri with
  | none => .err .invalidUri
  | some u => if !u.hostStr.isSome then .err .invalidUri else .ok ()

/-- `is_ascii_graphic`, on a byte: a non-ASCII character consists of bytes >= 0x80, none of them graphic -/
def isAsciiGraphic (c : UInt8) : Bool := 33 ≤ c && c ≤ 126

/-- settings.rs:199-208 `validate_salt` -/
def validateSalt (salt : Bytes) : Res SettingsError Unit :=
  if salt.isEmpty then .err .saltEmpty
  else if salt.any (fun c => !isAsciiGraphic c) then .err .invalidSalt
  else .ok ()

/-- settings.rs:210-215 `validate_chain_id` -/
def validateChainId (c : UInt32) : Res SettingsError Unit :=
  if c = 0 then .err .chainIdZero else .ok ()

/-- settings.rs:217-222 `validate_scheme` -/
def validateScheme (scheme : Bytes) : Res SettingsError Unit :=
  if scheme = ascii "http" ∨ scheme = ascii "https" then .ok () else .err .invalidScheme

/-- settings.rs:224-229 `validate_statement` -/
def validateStatement (statement : Bytes) : Res SettingsError Unit :=
  if statement.contains 10 then .err .invalidStatement else .ok ()

/-- settings.rs:231-236 `validate_sign_in_expires_in` -/
def validateSignInExpiresIn (e : UInt64) : Res SettingsError Unit :=
  if e = 0 then .err .signInZero else .ok ()

/-- settings.rs:238-243 `validate_session_expires_in` -/
def validateSessionExpiresIn (e : UInt64) : Res SettingsError Unit :=
  if e = 0 then .err .sessionZero else .ok ()

/-- `Principal`'s derived order: length, then the bytes -/
def principalLe (a b : Bytes) : Bool :=
  if a.length < b.length then true
  else if b.length < a.length then false
  else (compare a b).isLE

/-- `Vec::dedup`: drop consecutive repetitions -/
def dedupConsecutive : List Bytes → List Bytes
  | [] => []
  | [a] => [a]
  | a :: b :: rest => if a = b then dedupConsecutive (b :: rest) else a :: dedupConsecutive (b :: rest)

/-- settings.rs:245-265 `validate_targets` -/
def validateTargets (targets : Option (List Bytes)) : Res SettingsError Unit :=
  match targets with
  | none => .ok ()
  | some ts =>
    if ts.isEmpty then .err .targetsEmpty
    else if ts.length > 1000 then .err .tooManyTargets
    else if (dedupConsecutive (sortBy principalLe ts)).length ≠ ts.length then .err .duplicateTargets
    else .ok ()

/-- settings.rs:165-177 `SettingsBuilder::build` -/
def SettingsBuilder.build (E : Env) (s : Settings) : Res SettingsError Settings := do
  validateDomain E s.scheme s.domain
  validateUri E s.uri
  validateSalt s.salt
  validateChainId s.chainId
  validateScheme s.scheme
  validateStatement s.statement
  validateSignInExpiresIn s.signInExpiresIn
  validateSessionExpiresIn s.sessionExpiresIn
  validateTargets s.targets
  .ok s

/-- `SettingsBuilder::new(domain, uri, salt)` followed by a chain of calls and `build()` -/
def SettingsBuilder.chain (E : Env) (domain uri salt : Bytes) (calls : List BuilderCall) :
    Res SettingsError Settings :=
  SettingsBuilder.build E (calls.foldl SettingsBuilder.call (SettingsBuilder.new domain uri salt))

end Siwe
