/-
Basic vocabulary of the model.

Rust `String`/`&str`/`Vec<u8>`/`ByteBuf` are all modelled by `Bytes`; a Rust string is its UTF-8 byte
sequence.  `Res` is Rust's `Result` with panics made explicit.
-/
namespace Siwe

/-- Rust byte strings, and Rust strings as their UTF-8 bytes. -/
abbrev Bytes := List UInt8

/-- Byte sequence of an ASCII literal (all literals in the modelled code are ASCII). -/
def ascii (s : String) : Bytes := s.toList.map fun c => UInt8.ofNat c.toNat

/-- Rust `Result<α, ε>` plus an explicit panic (in a canister a panic is a trap of the whole call). -/
inductive Res (ε α : Type) where
  | ok (a : α)
  | err (e : ε)
  | panic
  deriving DecidableEq, Repr

namespace Res

/-- The `?` operator: errors return early, panics propagate. -/
@[inline] def bind {ε α β : Type} (x : Res ε α) (f : α → Res ε β) : Res ε β :=
  match x with
  | ok a => f a
  | err e => err e
  | panic => panic

instance {ε : Type} : Monad (Res ε) where
  pure := Res.ok
  bind := Res.bind

/-- Rust `Result::map_err`. -/
def mapErr {ε ε' α : Type} (f : ε → ε') : Res ε α → Res ε' α
  | ok a => ok a
  | err e => err (f e)
  | panic => panic

/-- Rust `Result::unwrap`/`expect`: an error becomes a panic. -/
def unwrap {ε ε' α : Type} : Res ε α → Res ε' α
  | ok a => ok a
  | err _ => panic
  | panic => panic

/-- Case distinction on a result, as a function (same as `match`). -/
def elim {ε α β : Type} (x : Res ε α) (onErr : ε → β) (onPanic : β) (onOk : α → β) : β :=
  match x with
  | ok a => onOk a
  | err e => onErr e
  | panic => onPanic

@[simp] theorem elim_ok {ε α β : Type} (a : α) (f : ε → β) (p : β) (g : α → β) :
    (ok a).elim f p g = g a := rfl
@[simp] theorem elim_err {ε α β : Type} (e : ε) (f : ε → β) (p : β) (g : α → β) :
    (err e).elim f p g = f e := rfl
@[simp] theorem elim_panic {ε α β : Type} (f : ε → β) (p : β) (g : α → β) :
    (panic : Res ε α).elim f p g = p := rfl
@[simp] theorem pure_eq {ε α : Type} (a : α) : (pure a : Res ε α) = ok a := rfl
@[simp] theorem ok_bind {ε α β : Type} (a : α) (f : α → Res ε β) : (Res.ok a >>= f) = f a := rfl
@[simp] theorem err_bind {ε α β : Type} (e : ε) (f : α → Res ε β) : (Res.err e >>= f) = Res.err e := rfl
@[simp] theorem panic_bind {ε α β : Type} (f : α → Res ε β) :
    ((Res.panic : Res ε α) >>= f) = Res.panic := rfl
@[simp] theorem mapErr_ok {ε ε' α : Type} (f : ε → ε') (a : α) : mapErr f (ok a) = ok a := rfl
@[simp] theorem mapErr_err {ε ε' α : Type} (f : ε → ε') (e : ε) :
    mapErr f (err e : Res ε α) = err (f e) := rfl
@[simp] theorem mapErr_panic {ε ε' α : Type} (f : ε → ε') :
    mapErr f (panic : Res ε α) = panic := rfl
@[simp] theorem unwrap_ok {ε ε' α : Type} (a : α) : (unwrap (ok a : Res ε α) : Res ε' α) = ok a := rfl
@[simp] theorem unwrap_err {ε ε' α : Type} (e : ε) :
    (unwrap (err e : Res ε α) : Res ε' α) = panic := rfl
@[simp] theorem unwrap_panic {ε ε' α : Type} : (unwrap (panic : Res ε α) : Res ε' α) = panic := rfl

end Res

/-- A 32-byte array `[u8; 32]` (`ic_certified_map::Hash`). -/
structure Hash where
  bytes : Bytes
  len : bytes.length = 32
  deriving DecidableEq

theorem Hash.ext' {a b : Hash} (h : a.bytes = b.bytes) : a = b := by
  cases a; cases b; simp_all

/-- `u64::MAX`. -/
def u64Max : UInt64 := UInt64.ofNat (2 ^ 64 - 1)

/-- `u64::saturating_add`. -/
def satAdd (a b : UInt64) : UInt64 :=
  if a.toNat + b.toNat < 2 ^ 64 then a + b else u64Max

theorem satAdd_toNat (a b : UInt64) : (satAdd a b).toNat = min (a.toNat + b.toNat) (2 ^ 64 - 1) := by
  unfold satAdd
  split
  · next h => rw [UInt64.toNat_add]; omega
  · next h =>
    have : u64Max.toNat = 2 ^ 64 - 1 := by decide
    omega

/-- insert into a sorted list -/
def insertSorted {α : Type} (le : α → α → Bool) (a : α) : List α → List α
  | [] => [a]
  | b :: bs => if le a b then a :: b :: bs else b :: insertSorted le a bs

/-- `slice::sort`/`sort_unstable`: insertion sort.  Which algorithm is used is not observable, because elements
that compare equal are identical in both uses. -/
def sortBy {α : Type} (le : α → α → Bool) : List α → List α
  | [] => []
  | a :: as => insertSorted le a (sortBy le as)

theorem insertSorted_perm {α : Type} (le : α → α → Bool) (a : α) (l : List α) :
    (insertSorted le a l).Perm (a :: l) := by
  induction l with
  | nil => exact .refl _
  | cons b bs ih =>
    rw [insertSorted]
    split
    · exact .refl _
    · exact (ih.cons b).trans (.swap a b bs)

theorem sortBy_perm {α : Type} (le : α → α → Bool) (l : List α) : (sortBy le l).Perm l := by
  induction l with
  | nil => exact .refl _
  | cons a as ih => exact (insertSorted_perm le a _).trans (ih.cons a)

theorem insertSorted_pairwise {α : Type} {le : α → α → Bool} (total : ∀ a b, (le a b || le b a) = true)
    (trans : ∀ a b c, le a b = true → le b c = true → le a c = true) (a : α) (l : List α)
    (h : l.Pairwise fun a b => le a b = true) : (insertSorted le a l).Pairwise fun a b => le a b = true := by
  induction l with
  | nil => simp [insertSorted]
  | cons b bs ih =>
    have hb := List.pairwise_cons.mp h
    rw [insertSorted]
    split
    · next hab =>
      refine List.pairwise_cons.mpr ⟨?_, h⟩
      intro x hx
      rcases List.mem_cons.mp hx with rfl | hx
      · exact hab
      · exact trans _ _ _ hab (hb.1 x hx)
    · next hab =>
      refine List.pairwise_cons.mpr ⟨?_, ih hb.2⟩
      intro x hx
      rcases List.mem_cons.mp ((insertSorted_perm le a bs).mem_iff.mp hx) with rfl | hx
      · have := total x b
        simp_all
      · exact hb.1 x hx

theorem sortBy_pairwise {α : Type} {le : α → α → Bool} (total : ∀ a b, (le a b || le b a) = true)
    (trans : ∀ a b c, le a b = true → le b c = true → le a c = true) (l : List α) :
    (sortBy le l).Pairwise fun a b => le a b = true := by
  induction l with
  | nil => simp [sortBy]
  | cons a as ih => exact insertSorted_pairwise total trans a _ ih

/-- `usize as u8` / `len() as u8`: truncation modulo 256. -/
def asU8 (n : Nat) : UInt8 := UInt8.ofNat n

end Siwe
