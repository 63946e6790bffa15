import Verif.Model.Basic
/- `std::str::from_utf8` (core::str::validations, Rust's standard library), through which every text of a message goes. -/
namespace Siwe

/-- A byte that continues a character (`10xxxxxx`). -/
def continues (b : UInt8) : Bool := 0x80 ≤ b && b ≤ 0xbf

/-- Whether bytes are a text, `run_utf8_validation`: the first byte gives the length of a character and, with the second, rules out
characters written too long, surrogates and numbers above U+10FFFF. -/
def isUtf8 : Bytes → Bool
  | [] => true
  | a :: rest =>
    if a < 0x80 then isUtf8 rest
    else match rest with
    | [] => false
    | b :: rest =>
      if 0xc2 ≤ a ∧ a ≤ 0xdf then continues b && isUtf8 rest
      else match rest with
      | [] => false
      | c :: rest =>
        if 0xe0 ≤ a ∧ a ≤ 0xef then
          ((a = 0xe0 && 0xa0 ≤ b && b ≤ 0xbf) || (0xe1 ≤ a && a ≤ 0xec && continues b) || (a = 0xed && 0x80 ≤ b && b ≤ 0x9f) ||
            (0xee ≤ a && continues b)) && continues c && isUtf8 rest
        else match rest with
        | [] => false
        | d :: rest =>
          ((a = 0xf0 && 0x90 ≤ b && b ≤ 0xbf) || (0xf1 ≤ a && a ≤ 0xf3 && continues b) || (a = 0xf4 && 0x80 ≤ b && b ≤ 0x8f)) &&
            continues c && continues d && isUtf8 rest

end Siwe
