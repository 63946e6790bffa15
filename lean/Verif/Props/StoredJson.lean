import Verif.Props.Reload
import Verif.Spec.StoredJson
/- Property C106, the other direction: what @dfinity/identity takes for an identity. -/
namespace Siwe
open Spec IdentityJson

theorem idDigit_iff : ∀ (c : UInt8) (x : Nat), digit c = some x ↔ isHexDigit c = true ∧ x = digitValue c := by
  have h : ∀ c : UInt8, digit c = if isHexDigit c = true then some (digitValue c) else none := by
    have : ∀ n : Fin 256, digit (UInt8.ofNat n) = if isHexDigit (UInt8.ofNat n) = true then some (digitValue (UInt8.ofNat n)) else none := by
      decide +kernel
    intro c
    have := this ⟨c.toNat, c.toNat_lt⟩
    simpa using this
  intro c x
  rw [h]
  split
  · next hc => simp [hc, eq_comm]
  · next hc => simp [hc]

theorem digitValue_lt : ∀ c : UInt8, isHexDigit c = true → digitValue c < 16 := by
  have : ∀ n : Fin 256, isHexDigit (UInt8.ofNat n) = true → digitValue (UInt8.ofNat n) < 16 := by decide +kernel
  intro c
  have := this ⟨c.toNat, c.toNat_lt⟩
  simpa using this

theorem idPairs_iff : ∀ (s bs : Bytes), pairs s = some bs ↔ HexBytes s bs
  | [], bs => by
    simp only [pairs, Option.some.injEq, HexBytes, List.nil_eq, List.append_eq_nil_iff, List.cons_ne_self, and_false, false_and, exists_false,
      or_false]
    cases bs <;> simp [Spells]
  | [a], bs => by
    have h1 : ¬Spells [a] bs := by cases bs <;> simp [Spells]
    simp only [pairs, HexBytes, h1, false_or]
    constructor
    · intro h
      split at h
      · next x hx =>
        obtain ⟨g1, rfl⟩ := (idDigit_iff a x).mp hx
        exact ⟨[], [], a, rfl, trivial, g1, (Option.some.inj h).symm⟩
      · cases h
    · rintro ⟨s', bs', c, e1, e2, e3, rfl⟩
      cases s' with
      | nil =>
        simp only [List.nil_append, List.cons.injEq, and_true] at e1
        subst e1
        cases bs' with
        | nil => rw [(idDigit_iff a _).mpr ⟨e3, rfl⟩]; rfl
        | cons => exact absurd e2 (by simp [Spells])
      | cons x s' => simp at e1
  | a :: b :: rest, bs => by
    have ih := idPairs_iff rest
    simp only [pairs]
    constructor
    · intro h
      split at h
      · next x y cs hx hy hp =>
        obtain ⟨g1, rfl⟩ := (idDigit_iff a x).mp hx
        obtain ⟨g2, rfl⟩ := (idDigit_iff b y).mp hy
        obtain rfl := Option.some.inj h
        have hv : (UInt8.ofNat (16 * digitValue a + digitValue b)).toNat = 16 * digitValue a + digitValue b := by
          have := digitValue_lt a g1
          have := digitValue_lt b g2
          simp only [UInt8.toNat_ofNat']
          omega
        rcases (ih cs).mp hp with h' | ⟨s', bs', c, e1, e2, e3, e4⟩
        · exact .inl ⟨g1, g2, hv, h'⟩
        · exact .inr ⟨a :: b :: s', _ :: bs', c, by rw [e1]; rfl, ⟨g1, g2, hv, e2⟩, e3, by rw [e4]; rfl⟩
      · cases h
    · have go : ∀ (x : UInt8) (cs : Bytes), isHexDigit a = true → isHexDigit b = true → x.toNat = 16 * digitValue a + digitValue b →
          HexBytes rest cs → (match digit a, digit b, pairs rest with
            | some x, some y, some bs => some (UInt8.ofNat (16 * x + y) :: bs)
            | _, _, _ => none) = some (x :: cs) := by
        intro x cs g1 g2 g3 g4
        rw [(idDigit_iff a _).mpr ⟨g1, rfl⟩, (idDigit_iff b _).mpr ⟨g2, rfl⟩, (ih cs).mpr g4]
        show some (UInt8.ofNat (16 * digitValue a + digitValue b) :: cs) = _
        rw [← g3]
        simp
      rintro (h | ⟨s', bs', c, e1, e2, e3, rfl⟩)
      · cases bs with
        | nil => exact absurd h (by simp [Spells])
        | cons x cs => exact go x cs h.1 h.2.1 h.2.2.1 (.inl h.2.2.2)
      · cases s' with
        | nil => simp at e1
        | cons a' s' =>
          cases s' with
          | nil => exact absurd e2 (by cases bs' <;> simp [Spells])
          | cons b' s' =>
            simp only [List.cons_append, List.cons.injEq] at e1
            obtain ⟨rfl, rfl, rfl⟩ := e1
            cases bs' with
            | nil => exact absurd e2 (by simp [Spells])
            | cons x cs => exact go x _ e2.1 e2.2.1 e2.2.2.1 (.inr ⟨s', cs, c, rfl, e2.2.2.2, e3, rfl⟩)

theorem idBlob_iff (j : Option Json) (bs : Bytes) : parseBlob j = some bs ↔ ∃ x, j = some x ∧ IsBlob x bs := by
  unfold parseBlob
  split
  · next s =>
    constructor
    · intro h
      split at h
      · cases h
      · next hl =>
        unfold fromHex at h
        split at h
        · cases h
        · exact ⟨_, rfl, s, rfl, by omega, (idPairs_iff s bs).mp h⟩
    · rintro ⟨x, hx, s', rfl, h1, h2⟩
      obtain rfl := Json.str.inj (Option.some.inj hx)
      have : ¬s.isEmpty = true := by
        intro he
        rw [List.isEmpty_iff.mp he] at h1
        exact absurd h1 (by decide)
      rw [if_neg (by omega), fromHex, if_neg this]
      exact (idPairs_iff s bs).mpr h2
  · next h =>
    refine ⟨fun h => (by cases h), ?_⟩
    rintro ⟨x, rfl, s, rfl, _⟩
    exact absurd rfl (h s)

theorem idDigits_iff : ∀ (s : Bytes) (n m : Nat), bigIntDigits n s = some m ↔
    (∀ x ∈ s, isHexDigit x = true) ∧ s.foldl (fun n c => 16 * n + digitValue c) n = m
  | [], n, m => by simp [bigIntDigits]
  | c :: s, n, m => by
    simp only [bigIntDigits, List.mem_cons, forall_eq_or_imp, List.foldl_cons]
    constructor
    · intro h
      split at h
      · next x hx =>
        obtain ⟨g1, rfl⟩ := (idDigit_iff c x).mp hx
        obtain ⟨k1, k2⟩ := (idDigits_iff s _ m).mp h
        exact ⟨⟨g1, k1⟩, k2⟩
      · cases h
    · rintro ⟨⟨g1, k1⟩, k2⟩
      rw [(idDigit_iff c _).mpr ⟨g1, rfl⟩]
      exact (idDigits_iff s _ m).mpr ⟨k1, k2⟩

theorem idExpiration_iff (j : Option Json) (e : UInt64) : readExpiration j = some e ↔
    ∃ s, j = some (.str s) ∧ s ≠ [] ∧ (∀ x ∈ s, isHexDigit x = true) ∧ hexNumber s = e.toNat := by
  unfold readExpiration
  split
  · next s =>
    constructor
    · intro h
      split at h
      · next n hn =>
        split at h
        · next hlt =>
          unfold bigIntHex at hn
          split at hn
          · cases hn
          · next hne =>
            obtain ⟨k1, k2⟩ := (idDigits_iff s 0 n).mp hn
            refine ⟨s, rfl, by simpa using hne, k1, ?_⟩
            rw [← Option.some.inj h, hexNumber, k2]
            simp only [UInt64.toNat_ofNat']
            omega
        · cases h
      · cases h
    · rintro ⟨s', hs, h1, h2, h3⟩
      cases hs
      have hb : bigIntHex s = some e.toNat := by
        unfold bigIntHex
        rw [if_neg (by simpa using h1)]
        exact (idDigits_iff s 0 _).mpr ⟨h2, h3⟩
      simp only [hb, e.toNat_lt, if_true]
      simp
  · next h =>
    refine ⟨fun h => (by cases h), ?_⟩
    rintro ⟨s, rfl, _⟩
    exact absurd rfl (h s)

theorem idPrincipals_iff : ∀ (l : List Json) (ts : List Bytes), principals l = some ts ↔
    List.Forall₂ (fun x t => ∃ s, x = Json.str s ∧ HexBytes s t) l ts
  | [], ts => by cases ts <;> simp [principals]
  | j :: l, ts => by
    have ih := idPrincipals_iff l
    constructor
    · intro h
      unfold principals at h
      split at h
      · next heq => cases heq
      · next s l' heq =>
        cases heq
        split at h
        · next p ps hp hps =>
          obtain rfl := Option.some.inj h
          exact .cons ⟨s, rfl, (idPairs_iff s p).mp hp⟩ ((ih ps).mp hps)
        · cases h
      · cases h
    · intro h
      cases h with
      | cons h1 h2 =>
        obtain ⟨s, rfl, hs⟩ := h1
        unfold principals
        rw [show principalFromHex s = some _ from (idPairs_iff s _).mpr hs, (ih _).mpr h2]

theorem idTargets_iff (j : Option Json) (o : Option (List Bytes)) : readTargets j = some o ↔
    (j = none ∧ o = none) ∨ ∃ l ts, j = some (.arr l) ∧ o = some ts ∧
      List.Forall₂ (fun x t => ∃ s, x = Json.str s ∧ HexBytes s t) l ts := by
  unfold readTargets
  split
  · simp [eq_comm]
  · next l =>
    constructor
    · intro h
      split at h
      · next ps hps => exact .inr ⟨l, ps, rfl, (Option.some.inj h).symm, (idPrincipals_iff l ps).mp hps⟩
      · cases h
    · rintro (⟨h, _⟩ | ⟨l', ts, h, rfl, h2⟩)
      · cases h
      · cases h
        rw [(idPrincipals_iff l ts).mpr h2]
  · next h1 h2 =>
    refine ⟨fun h => (by cases h), ?_⟩
    rintro (⟨rfl, _⟩ | ⟨l, ts, rfl, _⟩)
    · exact absurd rfl h1
    · exact absurd rfl (h2 l)

/-- C106: a text in local storage is taken for a delegation chain exactly if it is JSON of this form: one delegation whose public key and
signature are strings of at least 64 hex digits, whose expiration is a 64-bit number in hex digits and whose targets, if any, are an array of
strings of hex digits; and a public key of at least 64 hex digits. For everything else no identity is loaded (the texts
the model leaves out are listed in Model/IdentityJson.lean). -/
theorem C106_chain_texts (P : KeyPairs) (t : Bytes) (c : Chain) :
    (identityLib P).chainFromJson t = some c ↔ ∃ j, Json.parse t = some j ∧ IsChainJson j c := by
  show chainFromJson t = some c ↔ _
  unfold chainFromJson
  cases hj : Json.parse t with
  | none => simp
  | some j =>
    simp only [Option.some.injEq, exists_eq_left']
    constructor
    · intro h
      split at h
      · next sd hsd =>
        split at h
        · next d signature publicKey hs hp =>
          obtain rfl := Option.some.inj h
          unfold readSigned at hs
          split at hs
          · cases hs
          · next dj hdj =>
            split at hs
            · next targets pubkey expiration sig ht hk he hsg =>
              have := Option.some.inj hs
              obtain ⟨rfl, rfl⟩ := Prod.mk.inj this
              obtain ⟨x1, y1, z1⟩ := (idBlob_iff _ _).mp hk
              obtain ⟨x2, y2, z2⟩ := (idBlob_iff _ _).mp hsg
              obtain ⟨x3, y3, z3⟩ := (idBlob_iff _ _).mp hp
              obtain ⟨x4, y4, z4, w4, v4⟩ := (idExpiration_iff _ _).mp he
              exact ⟨sd, dj, x1, x2, x3, x4, hsd, hdj, y1, z1, y2, z2, y3, z3, y4, z4, w4, v4, (idTargets_iff _ _).mp ht⟩
            · cases hs
        · cases h
      · cases h
    · rintro ⟨sd, dj, x1, x2, x3, x4, hsd, hdj, y1, z1, y2, z2, y3, z3, y4, z4, w4, v4, ht⟩
      rw [hsd]
      simp only [readSigned, hdj, (idBlob_iff _ _).mpr ⟨x1, y1, z1⟩, (idBlob_iff _ _).mpr ⟨x2, y2, z2⟩, (idBlob_iff _ _).mpr ⟨x3, y3, z3⟩,
        (idExpiration_iff _ _).mpr ⟨x4, y4, z4, w4, v4⟩, (idTargets_iff _ _).mpr ht]

theorem idLen_iff (b : Bytes) (n : Nat) (rest : Bytes) : decodeLen b = some (n, rest) ↔ ∃ l, b = l ++ rest ∧ DerLength l n := by
  constructor
  · intro h
    unfold decodeLen at h
    split at h
    · cases h
    · next c cs =>
      split at h
      · next hc =>
        obtain ⟨rfl, rfl⟩ := Prod.mk.inj (Option.some.inj h)
        exact ⟨[c], rfl, .inl ⟨c, rfl, hc, rfl⟩⟩
      · split at h
        · next hc =>
          subst hc
          split at h
          · next x r =>
            obtain ⟨rfl, rfl⟩ := Prod.mk.inj (Option.some.inj h)
            exact ⟨[0x81, x], rfl, .inr (.inl ⟨x, rfl, rfl⟩)⟩
          · cases h
        · split at h
          · next hc =>
            subst hc
            split at h
            · next x y r =>
              obtain ⟨rfl, rfl⟩ := Prod.mk.inj (Option.some.inj h)
              exact ⟨[0x82, x, y], rfl, .inr (.inr (.inl ⟨x, y, rfl, rfl⟩))⟩
            · cases h
          · split at h
            · next hc =>
              subst hc
              split at h
              · next x y z r =>
                obtain ⟨rfl, rfl⟩ := Prod.mk.inj (Option.some.inj h)
                exact ⟨[0x83, x, y, z], rfl, .inr (.inr (.inr ⟨x, y, z, rfl, rfl⟩))⟩
              · cases h
            · cases h
  · rintro ⟨l, rfl, ⟨b, rfl, hb, rfl⟩ | ⟨x, rfl, rfl⟩ | ⟨x, y, rfl, rfl⟩ | ⟨x, y, z, rfl, rfl⟩⟩
    · simp only [List.cons_append, List.nil_append, decodeLen, hb, if_true]
    all_goals rfl

theorem idDer_iff (der pub : Bytes) : unwrapDer der = some pub ↔ IsEd25519Der der pub := by
  constructor
  · intro hu
    unfold unwrapDer at hu
    split at hu
    · next rest' =>
      split at hu
      · cases hu
      · next k r1 hd1 =>
        split at hu
        · next ho =>
          split at hu
          · next r2 hr2 =>
            split at hu
            · next m key hd2 =>
              split at hu
              · next hn =>
                obtain rfl := Option.some.inj hu
                subst hn
                obtain ⟨l, rfl, hl⟩ := (idLen_iff _ _ _).mp hd1
                obtain ⟨l', rfl, hl'⟩ := (idLen_iff _ _ _).mp hd2
                have e := List.take_append_drop ed25519Oid.length r1
                rw [ho, hr2] at e
                refine ⟨l, k, l', hl, hl', ?_⟩
                rw [← e]
                simp [ed25519Oid]
              · cases hu
            · cases hu
          · cases hu
        · cases hu
    · cases hu
  · rintro ⟨l, n, l', hl, hl', rfl⟩
    have e1 : decodeLen (l ++ (ed25519Oid ++ 0x03 :: (l' ++ 0x00 :: pub))) = some (n, ed25519Oid ++ 0x03 :: (l' ++ 0x00 :: pub)) :=
      (idLen_iff _ _ _).mpr ⟨l, rfl, hl⟩
    have e2 : decodeLen (l' ++ 0x00 :: pub) = some (pub.length + 1, 0x00 :: pub) := (idLen_iff _ _ _).mpr ⟨l', rfl, hl'⟩
    have e3 : [0x30] ++ l ++ [0x30, 0x05, 0x06, 0x03, 0x2b, 0x65, 0x70] ++ [0x03] ++ l' ++ [0x00] ++ pub =
        0x30 :: (l ++ (ed25519Oid ++ 0x03 :: (l' ++ 0x00 :: pub))) := by simp [ed25519Oid]
    rw [e3]
    unfold unwrapDer
    simp only [e1, List.take_left', List.drop_left', if_true, e2]

/-- C106: a text is taken for a session identity exactly if it is a JSON array that begins with two strings of hex digits, the first for the
DER form of a public key of 32 bytes, the second for the private key, of a pair the page has generated. -/
theorem C106_key_texts (P : KeyPairs) (t : Bytes) (n : Nat) : (identityLib P).keyFromJson t = some n ↔
    ∃ a b rest der pub priv, Json.parse t = some (.arr (.str a :: .str b :: rest)) ∧ HexBytes a der ∧ b ≠ [] ∧ HexBytes b priv ∧
      pub.length = 32 ∧ IsEd25519Der der pub ∧ P.number pub priv = some n := by
  have hex : ∀ s bs, fromHex s = some bs ↔ s ≠ [] ∧ HexBytes s bs := by
    intro s bs
    unfold fromHex
    cases s with
    | nil => simp
    | cons c s => simpa using idPairs_iff (c :: s) bs
  show keyFromJson P t = some n ↔ _
  constructor
  · intro h
    unfold keyFromJson at h
    split at h
    · next a b rest hp =>
      split at h
      · next der priv ha hb =>
        split at h
        · next pub hu =>
          split at h
          · next hl =>
            exact ⟨a, b, rest, der, pub, priv, hp, ((hex _ _).mp ha).2, ((hex _ _).mp hb).1, ((hex _ _).mp hb).2, hl, (idDer_iff _ _).mp hu, h⟩
          · cases h
        · cases h
      · cases h
    · cases h
  · rintro ⟨a, b, rest, der, pub, priv, hp, ha, hb, hb', hl, hd, hn⟩
    have ha0 : a ≠ [] := by
      rintro rfl
      obtain ⟨l, k, l', _, _, rfl⟩ := hd
      have := (idPairs_iff [] _).mpr ha
      simp [IdentityJson.pairs] at this
    unfold keyFromJson
    rw [hp]
    simp only [(hex _ _).mpr ⟨ha0, ha⟩, (hex _ _).mpr ⟨hb, hb'⟩, (idDer_iff _ _).mpr hd, hl, if_true, hn]

set_option maxRecDepth 100000 in
/-- Non-vacuity: texts that are taken, with hex digits of either case and an odd one, and texts that are not. -/
example :
    let d := fun (e k t : String) => ascii ("{\"delegations\":[{\"delegation\":{\"expiration\":\"" ++ e ++ "\",\"pubkey\":\"" ++ k ++
      "\"" ++ t ++ "},\"signature\":\"" ++ "0101010101010101010101010101010101010101010101010101010101010101" ++
      "\"}],\"publicKey\":\"" ++ "0202020202020202020202020202020202020202020202020202020202020202" ++ "\"}")
    let k := "0303030303030303030303030303030303030303030303030303030303030303"
    let ask := fun t => ((identityLib Ex.pairs).chainFromJson t).map fun c => (c.delegation.expiration, c.delegation.targets)
    ask (d "fF" k "") = some (255, none) ∧ ask (d "ff" k ",\"targets\":[\"AbC\"]") = some (255, some [[0xAB, 0x0C]]) ∧
    ask (d "" k "") = none ∧ ask (d "f/" k "") = none ∧ ask (d "10000000000000000" k "") = none ∧ ask (d "ff" "03" "") = none ∧
    ask (d "ff" k ",\"targets\":[5]") = none ∧ ask (d "ff" k ",\"targets\":[\"/0\"]") = none ∧ ask (d "ff" k ",\"targets\":null") = none := by
  decide +kernel

set_option maxRecDepth 100000 in
/-- ... and for session identities: a key the page has, with a length of another form and an entry to spare; and another algorithm, a key
that is too short, and an empty private key. -/
example :
    let zeros := "0000000000000000000000000000000000000000000000000000000000000000"
    let ask := fun (der priv more : String) => (identityLib Ex.pairs).keyFromJson (ascii ("[\"" ++ der ++ "\",\"" ++ priv ++ "\"" ++ more ++ "]"))
    ask ("302A300506032b6570032100" ++ zeros) zeros "" = some 0 ∧ ask ("30812a300506032b657003820021" ++ "00" ++ zeros) zeros ",1" = some 0 ∧
    ask ("302a300506032b6571032100" ++ zeros) zeros "" = none ∧ ask "302a300506032b65700303000000" zeros "" = none ∧
    ask ("302a300506032b6570032100" ++ zeros) "" "" = none := by
  decide +kernel

end Siwe
