import Verif.Model.ErrorText
import Verif.Spec.ErrorText
import Verif.Lemmas.Hex
import Verif.Lemmas.Decimal
/- Helper lemmas about error texts. -/
namespace Siwe
open Spec

/-- Where a text begins. -/
def heads : List Bytes :=
  [ascii "Address format error: Must start with '0x' and be 42 characters long",
   ascii "Decoding error: Invalid character '",
   ascii "Decoding error: Odd number of digits",
   ascii "Signature format error: Must start with '0x' and be 132 characters long",
   ascii "Invalid signature",
   ascii "Invalid recovery ID",
   ascii "Public key recovery failure",
   ascii "EIP-55 error: Not EIP-55 encoded",
   ascii "EIP-55 error: Unrecognized hex character '",
   ascii "Signature not found",
   ascii "Internal error: signature map computed an invalid hash tree, witness hash is ",
   ascii "Invalid session key: Session key is empty",
   ascii "Invalid session key: Session key should be DER-encoded: ",
   ascii "Invalid expiration: Expiration is 0",
   ascii "Signature expired",
   ascii "Message not found",
   ascii "Recovered address does not match",
   ascii "Invalid principal: ",
   ascii "Principal to Ethereum address mapping is disabled",
   ascii "Ethereum address to principal mapping is disabled",
   ascii "Failed to convert ByteBuf to Blob<29>",
   ascii "No address found for the given principal",
   ascii "No principal found for the given address"]

/-- One of them. -/
def head (i : Fin 23) : Bytes := heads[i.val]'i.2

theorem heads_apart : ∀ i j : Fin 23, i ≠ j → (head i).isPrefixOf (head j) = false := by
  decide +kernel

/-- The number of a reason's head. -/
def headOf : Reason → Fin 23
  | .eth .addressFormatError => 0
  | .eth (.decodingError (.invalidHexCharacter _ _)) => 1
  | .eth (.decodingError .oddLength) => 2
  | .eth .signatureFormatError => 3
  | .eth .invalidSignature => 4
  | .eth .invalidRecoveryId => 5
  | .eth .publicKeyRecoveryFailure => 6
  | .eth .notEip55 => 7
  | .eth (.unrecognizedHexCharacter _ _) => 8
  | .delegation .signatureNotFound => 9
  | .delegation (.witnessHashMismatch _ _) => 10
  | .delegation .sessionKeyEmpty => 11
  | .delegation .sessionKeyNotDer => 12
  | .delegation .invalidExpiration => 13
  | .delegation .signatureExpired => 14
  | .messageNotFound => 15
  | .otherSigner => 16
  | .invalidPrincipal => 17
  | .principalToEthDisabled => 18
  | .ethToPrincipalDisabled => 19
  | .principalTooLong => 20
  | .noAddress => 21
  | .noPrincipal => 22

/-- What follows the head. -/
def tailOf (derText : Bytes) : Reason → Bytes
  | .eth (.decodingError (.invalidHexCharacter c i)) => charDebug c ++ (ascii "' at position " ++ decimal i)
  | .eth (.unrecognizedHexCharacter c i) => c :: (ascii "' at position " ++ decimal i)
  | .delegation (.witnessHashMismatch w r) => hexEncode w.bytes ++ (ascii ", root hash is " ++ hexEncode r.bytes)
  | .delegation .sessionKeyNotDer => derText
  | _ => []

theorem text_eq (d : Bytes) (e : ProviderError) :
    e.text d = head (headOf (reason e)) ++ tailOf d (reason e) := by
  have hd : ascii "Decoding error: Invalid character '" = ascii "Decoding error: " ++ ascii "Invalid character '" := by decide
  have hd2 : ascii "Decoding error: Odd number of digits" = ascii "Decoding error: " ++ ascii "Odd number of digits" := by decide
  have heth : ∀ x : EthError, x.text = head (headOf (.eth x)) ++ tailOf d (.eth x) := by
    intro x
    cases x with
    | decodingError y =>
      cases y with
      | invalidHexCharacter c i =>
        simp only [EthError.text, FromHexError.text, headOf, tailOf]
        rw [show head 1 = ascii "Decoding error: Invalid character '" from rfl, hd]
        simp only [List.append_assoc]
      | oddLength =>
        simp only [EthError.text, FromHexError.text, headOf, tailOf]
        rw [show head 2 = ascii "Decoding error: Odd number of digits" from rfl, hd2]
        simp only [List.append_nil]
    | unrecognizedHexCharacter c i =>
      simp only [EthError.text, headOf, tailOf]
      rw [show head 8 = ascii "EIP-55 error: Unrecognized hex character '" from rfl]
      simp only [List.append_assoc, List.cons_append]
    | _ => exact (List.append_nil _).symm
  have hdel : ∀ x : DelegationError, x.text d = head (headOf (.delegation x)) ++
      tailOf d (.delegation x) := by
    intro x
    cases x with
    | witnessHashMismatch w r =>
      simp only [DelegationError.text, headOf, tailOf, List.append_assoc]
      rfl
    | sessionKeyNotDer => rfl
    | _ => exact (List.append_nil _).symm
  cases e with
  | eth x => exact heth x
  | delegation x => exact hdel x
  | login x =>
    cases x with
    | eth x => exact heth x
    | delegation x => exact hdel x
    | _ => exact (List.append_nil _).symm
  | _ => exact (List.append_nil _).symm

/-- Two texts with different heads differ. -/
theorem heads_differ {i j : Fin 23} {x y : Bytes} (h : head i ++ x = head j ++ y) : i = j := by
  refine Decidable.byContradiction fun hne => ?_
  have hl : ∀ {a b x y : Bytes}, a ++ x = b ++ y → a.length ≤ b.length → a.isPrefixOf b = true := by
    intro a b x y h hl
    rw [List.isPrefixOf_iff_prefix]
    exact List.prefix_of_prefix_length_le (List.prefix_append a x) (h ▸ List.prefix_append b y) hl
  rcases Nat.le_total (head i).length (head j).length with h1 | h1
  · have := hl h h1
    rw [heads_apart i j hne] at this; cases this
  · have := hl h.symm h1
    rw [heads_apart j i (Ne.symm hne)] at this; cases this

/-- The value of a digit. -/
def readDigit (c : UInt8) : Option UInt8 := match hexVal c 0 with
  | .ok v => some v
  | _ => none

/-- Read the escaped form of a character. -/
def readChar : Bytes → Option UInt8
  | [c] => if c = 92 ∨ 128 ≤ c then none else some c
  | [x, y] =>
    if x = 92 then
      if y = 48 then some 0 else if y = 116 then some 9 else if y = 110 then some 10 else if y = 114 then some 13
      else if y = 39 then some 39 else if y = 92 then some 92 else none
    else some (((x &&& (3 : UInt8)) <<< 6) ||| (y &&& (0x3f : UInt8)))
  | [_, _, _, h, c] => if c = 125 then readDigit h else none
  | [_, _, _, h, l, _] => (readDigit h).bind fun h => (readDigit l).map fun l => (h <<< 4) ||| l
  | _ => none

theorem readChar_charDebug : ∀ a : UInt8, readChar (charDebug a) = some a := by
  apply u8_all; decide +kernel

theorem readChar_take : ∀ b : UInt8, (charDebug b).length ≤ 6 ∧ ∀ k : Fin 7,
    readChar ((charDebug b).take k.val) = none ∨ readChar ((charDebug b).take k.val) = some b := by
  apply u8_all; decide +kernel

theorem charDebug_prefix (a b : UInt8) (h : (charDebug a).isPrefixOf (charDebug b) = true) : a = b := by
  have h := List.isPrefixOf_iff_prefix.mp h
  have hl := (readChar_take a).1
  have := (readChar_take b).2 ⟨(charDebug a).length, by omega⟩
  simp only at this
  rw [← List.prefix_iff_eq_take.mp h, readChar_charDebug] at this
  simpa using this

theorem charDebug_append {a b : UInt8} {x y : Bytes} (h : charDebug a ++ x = charDebug b ++ y) : a = b ∧ x = y := by
  have hl : ∀ {a b x y : Bytes}, a ++ x = b ++ y → a.length ≤ b.length → a.isPrefixOf b = true := by
    intro a b x y h hl
    rw [List.isPrefixOf_iff_prefix]
    exact List.prefix_of_prefix_length_le (List.prefix_append a x) (h ▸ List.prefix_append b y) hl
  have hab : a = b := by
    rcases Nat.le_total (charDebug a).length (charDebug b).length with h1 | h1
    · exact charDebug_prefix a b (hl h h1)
    · exact (charDebug_prefix b a (hl h.symm h1)).symm
  subst hab
  exact ⟨rfl, List.append_cancel_left h⟩

theorem tail_inj {d d' : Bytes} : ∀ {r r' : Reason}, headOf r = headOf r' → tailOf d r = tailOf d' r' → r = r' := by
  intro r r' hh ht
  have hpos : ∀ {i j : Nat}, ascii "' at position " ++ decimal i = ascii "' at position " ++ decimal j → i = j :=
    fun h => decimal_inj (List.append_cancel_left h)
  rcases r with e | _ | _ | e | _ | _ | _ | _ | _ | _ <;> rcases r' with e' | _ | _ | e' | _ | _ | _ | _ | _ | _
  all_goals first
    | rfl
    | (rcases e with _ | (⟨c, i⟩ | _) | _ | _ | _ | _ | _ | ⟨c, i⟩ <;> simp [headOf] at hh; done)
    | (rcases e' with _ | (⟨c, i⟩ | _) | _ | _ | _ | _ | _ | ⟨c, i⟩ <;> simp [headOf] at hh; done)
    | (rcases e with _ | ⟨w, r⟩ | _ | _ | _ | _ <;> simp [headOf] at hh; done)
    | (rcases e' with _ | ⟨w, r⟩ | _ | _ | _ | _ <;> simp [headOf] at hh; done)
    | (simp [headOf] at hh; done)
    | (rcases e with _ | (⟨c, i⟩ | _) | _ | _ | _ | _ | _ | ⟨c, i⟩ <;> rcases e' with _ | ⟨w, r⟩ | _ | _ | _ | _ <;>
        simp [headOf] at hh; done)
    | (rcases e' with _ | (⟨c, i⟩ | _) | _ | _ | _ | _ | _ | ⟨c, i⟩ <;> rcases e with _ | ⟨w, r⟩ | _ | _ | _ | _ <;>
        simp [headOf] at hh; done)
    | skip
  · rcases e with _ | (⟨c, i⟩ | _) | _ | _ | _ | _ | _ | ⟨c, i⟩ <;>
      rcases e' with _ | (⟨c', i'⟩ | _) | _ | _ | _ | _ | _ | ⟨c', i'⟩ <;>
      first
        | rfl
        | (simp [headOf] at hh; done)
        | skip
    · obtain ⟨h1, h2⟩ := charDebug_append ht
      rw [h1, hpos h2]
    · obtain ⟨h1, h2⟩ := List.cons.inj ht
      rw [h1, hpos h2]
  · rcases e with _ | ⟨w, r⟩ | _ | _ | _ | _ <;> rcases e' with _ | ⟨w', r'⟩ | _ | _ | _ | _ <;>
      first
        | rfl
        | (simp [headOf] at hh; done)
        | skip
    have hw : hexEncode w.bytes = hexEncode w'.bytes ∧
        ascii ", root hash is " ++ hexEncode r.bytes = ascii ", root hash is " ++ hexEncode r'.bytes :=
      List.append_inj ht (by rw [hexEncode_length, hexEncode_length, w.len, w'.len])
    rw [Hash.ext' (hexEncode_inj hw.1), Hash.ext' (hexEncode_inj (List.append_cancel_left hw.2))]

end Siwe
