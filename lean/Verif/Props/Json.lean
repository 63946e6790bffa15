import Verif.Lemmas.JsonGrammar
import Verif.Lemmas.Tabs
import Verif.Props.Tabs
/-
C84, C85: the JSON texts the code writes and reads.
-/
namespace Siwe
open Spec
open Json (Grammatical GrammaticalItems GrammaticalFields)

/-! ### C84 -/

/-- C84: printing a message (`to_string()`) gives a JSON text, by RFC 8259's grammar, and it stands for an object with exactly the
message's ten fields, whatever characters they contain. -/
theorem C84_display_is_json (m : SiweMessage) : ∃ j, JsonText m.display j ∧ IsObjectOf m j := by
  refine ⟨m.json, (Json.parse_iff _ _).1 (Json.parse_text ?_), _, _, _, _, decimal_spec _, decimal_spec _, decimal_spec _, decimal_spec _,
    rfl⟩
  simp only [SiweMessage.json, Grammatical, GrammaticalFields, Json.isNumber_decimal, and_self]

/-- C84: and it stands for nothing else. -/
theorem C84_display_only (m : SiweMessage) (j : Json) (h : JsonText m.display j) : IsObjectOf m j := by
  obtain ⟨j', hj, ho⟩ := C84_display_is_json m
  exact Json.text_unique h hj ▸ ho

/-- C84: messages that differ in any field are printed differently. -/
theorem C84_display_determines (m m' : SiweMessage) (h : m.display = m'.display) : m = m' := by
  obtain ⟨j, hj, v, c, i, e, hv, hc, hi, he, rfl⟩ := C84_display_is_json m
  obtain ⟨j', hj', v', c', i', e', hv', hc', hi', he', rfl⟩ := C84_display_is_json m'
  rw [h] at hj
  have hj := Json.text_unique hj' hj
  simp only [Json.obj.injEq, List.cons.injEq, Prod.mk.injEq, true_and, Json.str.injEq, Json.num.injEq, and_true] at hj
  obtain ⟨h1, h2, h3, h4, h5, h6, h7, h8, h9, h10⟩ := hj
  subst h6 h7 h9 h10
  have n6 := hv.2.2.2.symm.trans hv'.2.2.2
  have n7 := hc.2.2.2.symm.trans hc'.2.2.2
  have n9 := hi.2.2.2.symm.trans hi'.2.2.2
  have n10 := he.2.2.2.symm.trans he'.2.2.2
  cases m; cases m'
  simp only [SiweMessage.mk.injEq] at *
  exact ⟨h1.symm, h2.symm, h3.symm, h4.symm, h5.symm, UInt8.toNat_inj.1 n6, UInt32.toNat_inj.1 n7, h8.symm,
    UInt64.toNat_inj.1 n9, UInt64.toNat_inj.1 n10⟩

/-- Non-vacuity: a statement with a quote, a backslash, a line break, a control character and a letter outside ASCII. -/
example : SiweMessage.display ⟨ascii "https", ascii "example.com", ascii "0x00", ascii "a\"b\\c\n\x01é", ascii "u", 1, 10, ascii "n",
      7, 18446744073709551615⟩ =
    ascii ("{\"scheme\":\"https\",\"domain\":\"example.com\",\"address\":\"0x00\",\"statement\":\"a\\\"b\\\\c\\n\\u0001é\"," ++
      "\"uri\":\"u\",\"version\":1,\"chain_id\":10,\"nonce\":\"n\",\"issued_at\":7,\"expiration_time\":18446744073709551615}") := by
  decide +kernel

/-! ### C85 -/

/-- C85: which texts in local storage are taken for an identity, and which one; for any other text `loadIdentity` throws, and the
manager's constructor, which catches that, goes on signed out. -/
theorem C85_which_texts (L : IdentityLib) (item : Option Bytes) (address : Json) (i : Identity) :
    loadIdentity L item = some (address, i) ↔ ∃ t, item = some t ∧ HoldsIdentity L t address i := by
  constructor
  · intro h
    unfold loadIdentity at h
    split at h
    · exact (nomatch h)
    · exact (nomatch h)
    · next t _ =>
      refine ⟨t, rfl, ?_⟩
      split at h
      · exact (nomatch h)
      · next j hj =>
        split at h
        · next a s c ha hs hc =>
          split at h
          · exact (nomatch h)
          · next d hd =>
            split at h
            · exact (nomatch h)
            · next k hk =>
              simp only [Option.some.injEq, Prod.mk.injEq] at h
              obtain ⟨rfl, rfl⟩ := h
              rw [Json.required_iff] at ha hs hc
              exact ⟨j, s, c, (Json.parse_iff _ _).1 hj, ha.1, ha.2, hs.1, hs.2, hc.1, hc.2, hk, hd⟩
        · exact (nomatch h)
  · rintro ⟨t, rfl, j, s, c, hj, a1, a2, s1, s2, c1, c2, hk, hd⟩
    rw [← Json.parse_iff] at hj
    have ha := (Json.required_iff _ _ _).2 ⟨a1, a2⟩
    have hs := (Json.required_iff _ _ _).2 ⟨s1, s2⟩
    have hc := (Json.required_iff _ _ _).2 ⟨c1, c2⟩
    unfold loadIdentity
    split
    · next h => exact (nomatch h)
    · next h =>
      have := Option.some.inj h
      subst this
      exact absurd hj (by rw [show Json.parse [] = none from rfl]; exact (nomatch ·))
    · next t' h =>
      have := Option.some.inj h
      subst this
      simp only [hj, ha, hs, hc, hd, hk]

/-- C85: a value taken out of a parsed text and written again, as `loadIdentity` does before it hands it to @dfinity/identity, stands for
the same value. -/
theorem C85_rewriting (t : Bytes) (j : Json) (h : JsonText t j) : JsonText j.text j :=
  (Json.parse_iff _ _).1 (Json.parse_text ((Json.writable_iff _).1 ⟨t, h⟩))

/-- Non-vacuity: a text with white space, an exponent, an escape, a surrogate pair and a surrogate without its other half. -/
example : JsonText (ascii " {\"a\" : [-1.5e+3, \"\\n\\uD834\\uDD1E\\uD834\"]}\n")
    (.obj [(ascii "a", .arr [.num (ascii "-1.5e+3"), .str ([10, 0xF0, 0x9D, 0x84, 0x9E, 0xED, 0xA0, 0xB4] : Bytes)])]) :=
  Json.text_of (by simp only [Grammatical, GrammaticalFields, GrammaticalItems, and_true]; decide) (by decide +kernel)

/-- C85: what `JSON.parse` returns is what the text stands for by RFC 8259's grammar, and it throws if the text is none of the grammar's. -/
theorem C85_parse (t : Bytes) (j : Json) : Json.parse t = some j ↔ JsonText t j := Json.parse_iff t j

theorem not_falsy_shape {v : Json} (h : (∃ l, v = .arr l) ∨ ∃ l, v = .obj l) : ¬Falsy v := by
  rcases h with ⟨l, rfl⟩ | ⟨l, rfl⟩ <;> simp [Falsy]

/-- C85: what was saved is read back: the same account, session and chain. -/
theorem C85_saved_is_loaded (L : IdentityLib) (hL : Lossless L) (s : Stored) (hs : s.address ≠ []) :
    loadIdentity L (some (saveIdentity L s)) = some (.str s.address, ⟨s.session, s.chain⟩) := by
  rw [C85_which_texts]
  refine ⟨_, rfl, _, L.keyToJson s.session, L.chainToJson s.chain, (Json.parse_iff _ _).1 (Json.parse_text ?_), ?_, ?_, ?_, ?_, ?_, ?_, ?_, ?_⟩
  · simp only [Grammatical, GrammaticalFields, (Json.writable_iff _).1 (hL.keyText _), (Json.writable_iff _).1 (hL.chainText _), and_self]
  · exact ⟨[], _, rfl, by simp; decide⟩
  · simp [Falsy, hs]
  · exact ⟨[_], _, rfl, by simp; decide⟩
  · exact not_falsy_shape (hL.keyShape _)
  · exact ⟨[_, _], _, rfl, by simp⟩
  · exact not_falsy_shape (hL.chainShape _)
  · exact hL.key _
  · exact hL.chain _

theorem obtained_address {E : Env} {K : SessionKeys} {h : History} {l : List Output} {a : Bytes} {i : Identity}
    (x : Obtained E K h l a i) : a ≠ [] := by
  rintro rfl
  obtain ⟨_, _, _, _, _, _, _, _, _, _, _, _, _, _, _, _, _, _, hs⟩ := x.explained
  obtain ⟨key, _, hk⟩ := hs
  have hl := (E.keccak key).len
  cases hb : (E.keccak key).bytes.drop 12 with
  | nil =>
    have := congrArg List.length hb
    simp [hl] at this
  | cons b bs => rw [hb] at hk; simp [Spells] at hk

theorem loads_storage (L : IdentityLib) (hL : Lossless L) (o : Option Stored) (ho : ∀ s, o = some s → s.address ≠ []) :
    loadIdentity L (o.map (saveIdentity L)) = o.map fun s => (.str s.address, ⟨s.session, s.chain⟩) := by
  cases o with
  | none => rfl
  | some s => exact C85_saved_is_loaded L hL s (ho s rfl)

/-- C85: at any moment of any history of a browser with several tabs, a page that reads local storage's text gets the identity of the
last login in any tab, and none if there was no login or a tab signed out since. -/
theorem C85_loads_last_login (E : Env) (K : SessionKeys) (L : IdentityLib) (hL : Lossless L) (hs : List TabHappening)
    (o : Option Identity) (h : Standing E K hs o) :
    (loadIdentity L ((browserAfter E K hs).storage.map (saveIdentity L))).map (·.2) = o := by
  rw [loads_storage L hL _ fun s hs' => obtained_address ((tabsOk E K hs).stored s hs'), ← standing_storage h, Option.map_map]
  rfl

/-- C85: and at any moment of a page's history, what it displays is what it would display if it were loaded again from local
storage's text. -/
theorem C85_displays_what_is_stored (E : Env) (K : SessionKeys) (L : IdentityLib) (hL : Lossless L) (hs : List Happening) :
    loadIdentity L ((worldAfter E K hs).client.storage.map (saveIdentity L)) =
      match (worldAfter E K hs).client.ctx.identityAddress, (worldAfter E K hs).client.ctx.identity with
      | some a, some i => some (.str a, i)
      | _, _ => none := by
  have x := (worldOk E K hs).ctx
  rw [loads_storage L hL _ fun s hs' => obtained_address (x.stored s hs'), x.address, x.identity]
  cases (worldAfter E K hs).client.storage <;> rfl

/-- A number from its decimal digits. -/
def Ex.value (ds : Bytes) : Nat := ds.foldl (fun a c => 10 * a + (c.toNat - 48)) 0

/-- Strings out of JSON strings. -/
def Ex.strings : List Json → Option (List Bytes)
  | [] => some []
  | .str s :: l => (Ex.strings l).map (s :: ·)
  | _ => none

/-- A library with lossless JSON forms. -/
def Ex.lib : IdentityLib where
  keyToJson k := .arr [.num (decimal k)]
  keyFromJson t :=
    match Json.parse t with
    | some (.arr [.num d]) => some (Ex.value d)
    | _ => none
  chainToJson c := .obj [
    (ascii "pubkey", .str c.delegation.pubkey),
    (ascii "expiration", .num (decimal c.delegation.expiration.toNat)),
    (ascii "targets", match c.delegation.targets with | none => .null | some l => .arr (l.map .str)),
    (ascii "signature", .str c.signature),
    (ascii "publicKey", .str c.publicKey)]
  chainFromJson t :=
    match Json.parse t with
    | some (.obj [(_, .str pubkey), (_, .num e), (_, .null), (_, .str sig), (_, .str pk)]) =>
      some ⟨⟨pubkey, UInt64.ofNat (Ex.value e), none⟩, sig, pk⟩
    | some (.obj [(_, .str pubkey), (_, .num e), (_, .arr l), (_, .str sig), (_, .str pk)]) =>
      (Ex.strings l).map fun l => ⟨⟨pubkey, UInt64.ofNat (Ex.value e), some l⟩, sig, pk⟩
    | _ => none

theorem Ex.value_decimal (n : Nat) : Ex.value (decimal n) = n := (decimal_spec n).2.2.2

theorem Ex.strings_map (l : List Bytes) : Ex.strings (l.map .str) = some l := by
  induction l with
  | nil => rfl
  | cons a l ih => simp [Ex.strings, ih]

theorem Ex.grammatical_strings (l : List Bytes) : GrammaticalItems (l.map .str) := by
  induction l with
  | nil => simp [GrammaticalItems]
  | cons a l ih => simp [GrammaticalItems, Grammatical, ih]

/-- Non-vacuity: there are lossless JSON forms. -/
theorem Ex.lib_lossless : Lossless Ex.lib := by
  have hk : ∀ k, Grammatical (Ex.lib.keyToJson k) := fun k => by
    simp [Ex.lib, Grammatical, GrammaticalItems, Json.isNumber_decimal]
  have hc : ∀ c, Grammatical (Ex.lib.chainToJson c) := fun c => by
    obtain ⟨⟨p, e, t⟩, s, k⟩ := c
    cases t <;> simp [Ex.lib, Grammatical, GrammaticalFields, Json.isNumber_decimal, Ex.grammatical_strings]
  refine ⟨fun k => ?_, fun k => (Json.writable_iff _).2 (hk k), fun k => .inl ⟨_, rfl⟩, fun c => ?_, fun c => (Json.writable_iff _).2 (hc c),
    fun c => .inr ⟨_, rfl⟩⟩
  · show (match Json.parse (Ex.lib.keyToJson k).text with
      | some (.arr [.num d]) => some (Ex.value d)
      | _ => none) = _
    rw [Json.parse_text (hk k)]
    simp only [Ex.lib, Ex.value_decimal]
  · have h := Json.parse_text (hc c)
    obtain ⟨⟨p, e, t⟩, s, k⟩ := c
    cases t <;> simp only [Ex.lib] at h ⊢ <;> rw [h] <;>
      simp [Ex.value_decimal, Ex.strings_map]

/-- A tab in which somebody has signed in. -/
def Ex.tabSignedIn : List TabHappening := .open_ :: Ex.signIn.map (.tab 0)

/-- Non-vacuity: a history after which somebody is signed in. -/
example : Standing Toy.env Ex.keys Ex.tabSignedIn (some Ex.identity) := by
  obtain ⟨o, ho⟩ := C75_standing Toy.env Ex.keys Ex.tabSignedIn
  have h := standing_storage ho
  have h' : ((browserAfter Toy.env Ex.keys Ex.tabSignedIn).storage.map fun s => (⟨s.session, s.chain⟩ : Identity)) =
    some Ex.identity := by decide +kernel
  rw [h'] at h
  exact h ▸ ho

/-- Texts that are not taken for an identity: no JSON, no object, a missing, empty or null field; and one that is. -/
example : [ascii "", ascii "null", ascii "{", ascii "[1]", ascii "\"x\"", ascii "{\"address\":\"a\",\"sessionIdentity\":[1]}",
      ascii "{\"address\":\"\",\"sessionIdentity\":[1],\"delegationChain\":{}}",
      ascii "{\"address\":\"a\",\"sessionIdentity\":null,\"delegationChain\":{}}"].all
    (fun t => (loadIdentity Ex.lib (some t)).isNone) = true ∧
    (loadIdentity Ex.lib (some (ascii (" {\"address\":\"\", \"address\":\"a\",\"sessionIdentity\":[1],\"delegationChain\":{\"pubkey\":\"p\"," ++
      "\"expiration\":5,\"targets\":null,\"signature\":\"s\",\"publicKey\":\"k\"}}\n")))).map (·.2) =
      some ⟨1, ⟨⟨ascii "p", 5, none⟩, ascii "s", ascii "k"⟩⟩ := by decide +kernel

end Siwe
