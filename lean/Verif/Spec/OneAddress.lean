import Verif.Spec.Mapping
/- C133: principals and addresses through changes of the configuration. -/
namespace Siwe.Spec

/-- All successful installations and upgrades had salts whose length fits into a byte. -/
def ShortSalts (es : List Event) : Prop :=
  ∀ e ∈ es, ∀ j, (e.call = .install j ∨ e.call = .upgrade j) → e.reply = .done → j.salt.length ≤ 255

/-- All successful installations and upgrades kept both mappings; salt, URI and the rest may have changed. -/
def AlwaysMapped (es : List Event) : Prop :=
  ∀ e ∈ es, ∀ j, (e.call = .install j ∨ e.call = .upgrade j) → e.reply = .done → KeepsMappings j

/-- There was a login of the address, while the configuration was `i`, that returned these details. -/
def LogsInUnder (es : List Event) (i : SettingsInput) (addr : Bytes) (ld : LoginDetails) : Prop :=
  ∃ before e after key nonce, es = before ++ e :: after ∧ LastArgument before i ∧ e.LogsIn addr key nonce ld

/-- Two logins, perhaps under different configurations, whose identities exhibit a hash collision. -/
def CollideAcross (E : Env) (es : List Event) : Prop :=
  ∃ i i' a a' d d', LogsInUnder es i a d ∧ LogsInUnder es i' a' d' ∧
    (Collision E.sha256 (identityOf i a) (identityOf i' a') ∨ Collision E.sha224 (keyOf E i a) (keyOf E i' a'))

/-- What "one-to-one" would mean through changes of the configuration. -/
def AlwaysOneToOne (E : Env) : Prop :=
  ∀ h now a p, AlwaysMapped (trace E h) → ShortSalts (trace E h) →
    ((step (stateAfter E h) now (.getPrincipal a)).2 = .bytes p ↔ (step (stateAfter E h) now (.getAddress p)).2 = .bytes a)

end Siwe.Spec
