import Verif.Lemmas.Builder
import Verif.Props.Settings
/- C120: the settings builder. -/
namespace Siwe
open Spec

/-! ### C120 -/

/-- C120: the builder's chain of calls gives settings exactly when what the calls ask for is valid, and then gives just
that: for every setting the value of the last call about it, its default when there was none. -/
theorem C120_built (E : Env) (domain uri salt : Bytes) (calls : List BuilderCall) (s : Settings) :
    SettingsBuilder.chain E domain uri salt calls = .ok s ↔ CallsMean domain uri salt calls s ∧ ValidSettings E s := by
  have h := callsMean_foldl domain uri salt calls
  unfold SettingsBuilder.chain
  rw [C40_accepts]
  constructor
  · rintro ⟨hv, rfl⟩
    exact ⟨h, hv⟩
  · rintro ⟨ha, hv⟩
    have := ha.unique h
    exact ⟨this ▸ hv, this⟩

/-- C120: a chain of calls that asks for invalid settings is refused with the first requirement these fail, whatever
was set, and later overwritten, on the way. -/
theorem C120_refused (E : Env) (domain uri salt : Bytes) (calls : List BuilderCall) (e : SettingsError) :
    SettingsBuilder.chain E domain uri salt calls = .err e ↔
      ∃ s, CallsMean domain uri salt calls s ∧ FirstFailure (requirements E s) e ∧ ¬ HostlessDomain E s := by
  have h := callsMean_foldl domain uri salt calls
  unfold SettingsBuilder.chain
  rw [C40_rejects]
  constructor
  · exact fun hh => ⟨_, h, hh⟩
  · rintro ⟨s, ha, hh⟩
    rwa [ha.unique h] at hh

/-- C120: every chain of calls asks for one record of settings. -/
theorem C120_asks_once (domain uri salt : Bytes) (calls : List BuilderCall) :
    ∃ s, CallsMean domain uri salt calls s ∧ ∀ t, CallsMean domain uri salt calls t → t = s :=
  ⟨_, callsMean_foldl domain uri salt calls, fun _ ht => ht.unique (callsMean_foldl domain uri salt calls)⟩

/-- C120: as long as no method is called twice, the order of the calls does not matter: same settings, same error, same
panic. -/
theorem C120_any_order (E : Env) (domain uri salt : Bytes) (calls calls' : List BuilderCall) (hp : calls.Perm calls')
    (hn : (calls.map methodOf).Nodup) :
    SettingsBuilder.chain E domain uri salt calls = SettingsBuilder.chain E domain uri salt calls' := by
  have hn' : (calls'.map methodOf).Nodup := (hp.map methodOf).nodup_iff.1 hn
  unfold SettingsBuilder.chain
  rw [((callsMean_foldl domain uri salt calls).perm hn' hp).unique (callsMean_foldl domain uri salt calls')]

theorem callsFor_asks {E : Env} {i : SettingsInput} {ps : Option (List Bytes)} {calls : List BuilderCall} {s : Settings}
    {p : ProviderSettings} (hc : Configures E i s p) (hps : s.targets = ps) (hcalls : CallsFor i ps calls) :
    CallsMean i.domain i.uri i.salt calls s := by
  have nodup : (((i.chainId.map BuilderCall.chainId).toList ++ (i.scheme.map BuilderCall.scheme).toList
      ++ (i.statement.map BuilderCall.statement).toList
      ++ (i.signInExpiresIn.map BuilderCall.signInExpiresIn).toList
      ++ (i.sessionExpiresIn.map BuilderCall.sessionExpiresIn).toList ++ (ps.map BuilderCall.targets).toList
      ++ (if .includeUriInSeed ∈ i.runtimeFeatures.getD [] then [BuilderCall.runtimeFeatures [.includeUriInSeed]] else [])).map
        methodOf).Nodup := by
    cases i.chainId <;> cases i.scheme <;> cases i.statement <;> cases i.signInExpiresIn <;>
      cases i.sessionExpiresIn <;> cases ps <;> split <;> simp [methodOf]
  have hn : (calls.map methodOf).Nodup := (List.Perm.map methodOf hcalls).nodup_iff.2 nodup
  refine CallsMean.perm hn hcalls.symm ?_
  have h := callsMean_foldl i.domain i.uri i.salt ((i.chainId.map BuilderCall.chainId).toList
      ++ (i.scheme.map BuilderCall.scheme).toList
      ++ (i.statement.map BuilderCall.statement).toList
      ++ (i.signInExpiresIn.map BuilderCall.signInExpiresIn).toList
      ++ (i.sessionExpiresIn.map BuilderCall.sessionExpiresIn).toList ++ (ps.map BuilderCall.targets).toList
      ++ (if .includeUriInSeed ∈ i.runtimeFeatures.getD [] then [BuilderCall.runtimeFeatures [.includeUriInSeed]] else []))
  refine Eq.mp (congrArg _ ?_) h
  subst hps
  obtain ⟨h1, h2, h3, h4, h5, h6, h7, h8, -, -, h11, -, -⟩ := hc
  obtain ⟨d, u, sa, c, sc, st, si, se, t, f⟩ := s
  obtain ⟨d', u', sa', c', sc', st', si', se', t', f'⟩ := i
  simp only at *
  subst h1 h2 h3 h4 h5 h6 h7 h8 h11
  cases c' <;> cases sc' <;> cases st' <;> cases si' <;> cases se' <;> cases t <;> split <;> rfl

/-- C120: the canister's own configuration is the builder's: for an installation or an upgrade whose targets all are
principals, it is enough to know what a chain of builder calls for the given options, in any order, comes to. -/
theorem C120_canister {E : Env} (st : State E) (now : UInt64) (i : SettingsInput) (op : Op)
    (hop : op = .install i ∨ op = .upgrade i) (ps : Option (List Bytes)) (calls : List BuilderCall)
    (hps : i.targets.map (·.map E.principalFromText) = ps.map (·.map some)) (hc : CallsFor i ps calls) :
    ((step st now op).2 = .done ↔
      (∃ s, SettingsBuilder.chain E i.domain i.uri i.salt calls = .ok s) ∧ ∀ ts, ps = some ts → E.canisterId ∈ ts) ∧
    ((step st now op).2 = .done → ∀ s,
      SettingsBuilder.chain E i.domain i.uri i.salt calls = .ok s ↔ (step st now op).1.lib.settings = some s) := by
  have inj : ∀ {a b : List Bytes}, a.map some = b.map some → a = b :=
    fun h => (List.map_inj_right (fun _ _ h => by simpa using h)).1 h
  have hdone : (step st now op).2 = .done ↔
      ∃ s p, Configures E i s p ∧ ValidSettings E s ∧ (step st now op).1.lib.settings = some s := by
    rcases hop with rfl | rfl
    · constructor
      · intro h
        obtain ⟨s, p, h1, h2, h3⟩ := (C42_install st (step st now (.install i)).1 now i).1 (by rw [← h])
        exact ⟨s, p, h1, h2, by rw [h3]⟩
      · rintro ⟨s, p, h1, h2, -⟩
        rw [(C42_install st _ now i).2 ⟨s, p, h1, h2, rfl⟩]
    · constructor
      · intro h
        obtain ⟨s, p, h1, h2, h3⟩ := (C42_upgrade st (step st now (.upgrade i)).1 now i).1 (by rw [← h])
        exact ⟨s, p, h1, h2, by rw [h3]⟩
      · rintro ⟨s, p, h1, h2, -⟩
        rw [(C42_upgrade st _ now i).2 ⟨s, p, h1, h2, rfl⟩]
  have htargets : ∀ {s p}, Configures E i s p → s.targets = ps ∧ ∀ ts, ps = some ts → E.canisterId ∈ ts := by
    intro s p h
    cases ht : i.targets with
    | none =>
      rw [ht] at hps
      cases ps with
      | none => exact ⟨h.noTargets ht, nofun⟩
      | some _ => exact nomatch hps
    | some ts =>
      obtain ⟨qs, h1, h2, h3⟩ := h.targets ts ht
      rw [ht] at hps
      cases ps with
      | none => exact nomatch hps
      | some rs =>
        have := inj (h2.symm.trans (Option.some.inj hps))
        subst this
        exact ⟨h1, fun ts e => Option.some.inj e ▸ h3⟩
  have hbuilt : ∀ {s p}, Configures E i s p → ValidSettings E s →
      SettingsBuilder.chain E i.domain i.uri i.salt calls = .ok s :=
    fun h hv => (C120_built E _ _ _ _ _).2 ⟨callsFor_asks h (htargets h).1 hc, hv⟩
  have hsettings : ∀ s p, Configures E i s p → ValidSettings E s → (step st now op).1.lib.settings = some s := by
    rcases hop with rfl | rfl
    · intro s p h hv
      rw [(C42_install st _ now i).2 ⟨s, p, h, hv, rfl⟩]
    · intro s p h hv
      rw [(C42_upgrade st _ now i).2 ⟨s, p, h, hv, rfl⟩]
  refine ⟨⟨fun h => ?_, ?_⟩, fun h s => ?_⟩
  · obtain ⟨s, p, h1, h2, -⟩ := hdone.1 h
    exact ⟨⟨s, hbuilt h1 h2⟩, (htargets h1).2⟩
  · rintro ⟨⟨s, hs⟩, hid⟩
    obtain ⟨ha, hv⟩ := (C120_built E _ _ _ _ _).1 hs
    have hconf : Configures E i
        { domain := i.domain, uri := i.uri, salt := i.salt, chainId := i.chainId.getD 1,
          scheme := i.scheme.getD (ascii "https"), statement := i.statement.getD (ascii "SIWE Fields:"),
          signInExpiresIn := i.signInExpiresIn.getD 300000000000,
          sessionExpiresIn := i.sessionExpiresIn.getD 1800000000000, targets := ps,
          runtimeFeatures := if .includeUriInSeed ∈ i.runtimeFeatures.getD [] then some [.includeUriInSeed] else none }
        ⟨decide (.disableEthToPrincipalMapping ∈ i.runtimeFeatures.getD []),
         decide (.disablePrincipalToEthMapping ∈ i.runtimeFeatures.getD [])⟩ := by
      refine ⟨rfl, rfl, rfl, rfl, rfl, rfl, rfl, rfl, fun ht => ?_, fun ts ht => ?_, rfl, by simp, by simp⟩
      · rw [ht] at hps
        cases ps with
        | none => rfl
        | some _ => exact nomatch hps
      · rw [ht] at hps
        cases ps with
        | none => exact nomatch hps
        | some qs => exact ⟨qs, rfl, Option.some.inj hps, hid qs rfl⟩
    have := ha.unique (callsFor_asks hconf rfl hc)
    rw [← this] at hconf
    exact hdone.2 ⟨s, _, hconf, hv, hsettings s _ hconf hv⟩
  · obtain ⟨t, p, h1, h2, h3⟩ := hdone.1 h
    rw [h3, hbuilt h1 h2]
    simp

namespace Ex

/-- a setting given twice, and one that is left out -/
def builderCalls : List BuilderCall :=
  [.chainId 0, .targets [[1], [2]], .scheme (ascii "http"), .chainId 10, .sessionExpiresIn 5]

end Ex

/-- Non-vacuity of C120: the invalid chain id is overwritten, so the chain is accepted; ended a call earlier it would
have been refused; a permutation; the canister's argument with the same options. -/
example : SettingsBuilder.chain Toy.env (ascii "a.com") (ascii "http://a.com") (ascii "s") Ex.builderCalls =
      .ok { SettingsBuilder.new (ascii "a.com") (ascii "http://a.com") (ascii "s") with
        chainId := 10, targets := some [[1], [2]], scheme := ascii "http", sessionExpiresIn := 5 } ∧
    SettingsBuilder.chain Toy.env (ascii "a.com") (ascii "http://a.com") (ascii "s") (Ex.builderCalls.take 3) =
      .err .chainIdZero ∧
    (Ex.builderCalls.drop 1).Perm (Ex.builderCalls.drop 1).reverse ∧ ((Ex.builderCalls.drop 1).map methodOf).Nodup ∧
    CallsFor { exampleInput with chainId := some 10, sessionExpiresIn := some 5, runtimeFeatures := some [.includeUriInSeed], targets := none } none
      [.runtimeFeatures [.includeUriInSeed], .sessionExpiresIn 5, .chainId 10] := by
  refine ⟨by decide +kernel, by decide +kernel, (List.reverse_perm _).symm, by decide, ?_⟩
  unfold CallsFor
  decide

end Siwe
