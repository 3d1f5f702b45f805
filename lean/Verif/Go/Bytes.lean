/-!
# Bytes, errors and big-endian integers

Model of the parts of Go's `encoding/binary` (big endian, fixed-size values) and of
the error values the repository uses.
-/

namespace Verif

/-- A Go byte slice / byte string.  `nil` and empty slices are identified. -/
abbrev Bytes := List UInt8

/-- Error values.  `panic` stands for a Go panic (nothing in /repo recovers from one).
* `eof`, `unexpectedEOF`, `shortWrite`, `noProgress`: package `io`
* `bodyTooLong`, `corruptedHeader`: request.go:16,20
* `unknownType`: the `fmt.Errorf` of the type maps (ofp/action.go, ofp/instruction.go, ...)
* `invalidType`: `binary.Write`/`binary.Read` on a type that is not fixed-size
* `io c`: any error of the transport or of a user supplied serialiser. -/
inductive Err where
  | eof | unexpectedEOF | shortWrite | noProgress
  | bodyTooLong | corruptedHeader | unknownType | invalidType
  | panic
  | io (code : Nat)
  deriving DecidableEq, Repr

/-- `encoding.SkipEOF`, internal/encoding/encoding.go:249-255. -/
def skipEOF : Err → Option Err
  | .eof => none
  | e => some e

/-- Big-endian bytes of `v` modulo `256^k` (`binary.BigEndian`). -/
def putBE : Nat → Nat → Bytes
  | 0, _ => []
  | k + 1, v => UInt8.ofNat (v / 256 ^ k) :: putBE k v

/-- The number a byte string denotes in big-endian order. -/
def getBE (b : Bytes) : Nat := b.foldl (fun a x => a * 256 + x.toNat) 0

@[simp] theorem putBE_length (k v : Nat) : (putBE k v).length = k := by
  induction k with
  | zero => rfl
  | succ k ih => simp [putBE, ih]

theorem foldl_getBE (b : Bytes) (a : Nat) :
    b.foldl (fun a x => a * 256 + x.toNat) a = a * 256 ^ b.length + getBE b := by
  induction b generalizing a with
  | nil => simp [getBE]
  | cons x b ih =>
    simp only [List.foldl_cons, List.length_cons, getBE]
    rw [ih, ih (0 * 256 + x.toNat)]
    rw [Nat.pow_succ]
    grind

theorem getBE_cons (x : UInt8) (b : Bytes) :
    getBE (x :: b) = x.toNat * 256 ^ b.length + getBE b := by
  conv => lhs; unfold getBE
  simp only [List.foldl_cons]
  rw [foldl_getBE]; simp

theorem getBE_putBE (k v : Nat) : getBE (putBE k v) = v % 256 ^ k := by
  induction k with
  | zero => simp [putBE, getBE, Nat.mod_one]
  | succ k ih =>
    rw [putBE, getBE_cons, ih, putBE_length, UInt8.toNat_ofNat']
    have h : v % 256 ^ (k + 1) = v % 256 ^ k + 256 ^ k * (v / 256 ^ k % 256) := by
      rw [Nat.pow_succ, Nat.mod_mul]
    rw [h, Nat.add_comm, Nat.mul_comm]

theorem getBE_lt (b : Bytes) : getBE b < 256 ^ b.length := by
  induction b with
  | nil => simp [getBE]
  | cons x b ih =>
    rw [getBE_cons, List.length_cons, Nat.pow_succ]
    have h := x.toNat_lt
    have h2 : x.toNat * 256 ^ b.length ≤ 255 * 256 ^ b.length :=
      Nat.mul_le_mul_right _ (by omega)
    omega

theorem putBE_add_mul (k v m : Nat) : putBE k (m * 256 ^ k + v) = putBE k v := by
  induction k generalizing m v with
  | zero => rfl
  | succ k ih =>
    rw [putBE, putBE]
    congr 1
    · have hp : 0 < 256 ^ k := Nat.pow_pos (by omega)
      have : m * 256 ^ (k + 1) + v = v + (256 ^ k) * (m * 256) := by
        rw [Nat.pow_succ]; grind
      rw [this, Nat.add_mul_div_left _ _ hp]
      apply UInt8.toNat_inj.mp
      simp only [UInt8.toNat_ofNat']
      omega
    · have : m * 256 ^ (k + 1) + v = (m * 256) * 256 ^ k + v := by
        rw [Nat.pow_succ]; grind
      rw [this, ih]

theorem putBE_getBE (b : Bytes) : putBE b.length (getBE b) = b := by
  induction b with
  | nil => rfl
  | cons x b ih =>
    rw [List.length_cons, putBE, getBE_cons, putBE_add_mul, ih]
    congr 1
    have hp : 0 < 256 ^ b.length := Nat.pow_pos (by omega)
    have h := getBE_lt b
    rw [Nat.mul_comm, Nat.mul_add_div hp, Nat.div_eq_of_lt h]
    simp

/-- Fixed-size unsigned integers as `encoding/binary` reads and writes them. -/
class Wire (α : Type) where
  size : Nat
  toNat : α → Nat
  ofNat : Nat → α
  lt : ∀ x, toNat x < 256 ^ size
  ofNat_toNat : ∀ x, ofNat (toNat x) = x

instance : Wire UInt8 where
  size := 1
  toNat := UInt8.toNat
  ofNat := UInt8.ofNat
  lt x := by have := x.toNat_lt; omega
  ofNat_toNat x := by simp

instance : Wire UInt16 where
  size := 2
  toNat := UInt16.toNat
  ofNat := UInt16.ofNat
  lt x := by have := x.toNat_lt; omega
  ofNat_toNat x := by simp

instance : Wire UInt32 where
  size := 4
  toNat := UInt32.toNat
  ofNat := UInt32.ofNat
  lt x := by have := x.toNat_lt; omega
  ofNat_toNat x := by simp

instance : Wire UInt64 where
  size := 8
  toNat := UInt64.toNat
  ofNat := UInt64.ofNat
  lt x := by have := x.toNat_lt; omega
  ofNat_toNat x := by simp

/-- `binary.BigEndian` bytes of an unsigned integer. -/
def be {α : Type} [Wire α] (x : α) : Bytes := putBE (Wire.size α) (Wire.toNat x)

/-- The unsigned integer read from `size` big-endian bytes. -/
def ofBE (α : Type) [Wire α] (b : Bytes) : α := Wire.ofNat (getBE b)

@[simp] theorem be_length {α : Type} [Wire α] (x : α) : (be x).length = Wire.size α := by
  simp [be]

@[simp] theorem size_u8 : Wire.size UInt8 = 1 := rfl
@[simp] theorem size_u16 : Wire.size UInt16 = 2 := rfl
@[simp] theorem size_u32 : Wire.size UInt32 = 4 := rfl
@[simp] theorem size_u64 : Wire.size UInt64 = 8 := rfl

theorem be_ofBE_u8 {b : Bytes} (h : b.length = 1) : be (ofBE UInt8 b) = b := by
  have hlt := getBE_lt b
  rw [h] at hlt
  have : (UInt8.ofNat (getBE b)).toNat = getBE b := by simp only [UInt8.toNat_ofNat']; omega
  show putBE 1 (UInt8.ofNat (getBE b)).toNat = b
  rw [this, ← h]; exact putBE_getBE b

theorem be_ofBE_u16 {b : Bytes} (h : b.length = 2) : be (ofBE UInt16 b) = b := by
  have hlt := getBE_lt b
  rw [h] at hlt
  have : (UInt16.ofNat (getBE b)).toNat = getBE b := by simp only [UInt16.toNat_ofNat']; omega
  show putBE 2 (UInt16.ofNat (getBE b)).toNat = b
  rw [this, ← h]; exact putBE_getBE b

theorem be_ofBE_u32 {b : Bytes} (h : b.length = 4) : be (ofBE UInt32 b) = b := by
  have hlt := getBE_lt b
  rw [h] at hlt
  have : (UInt32.ofNat (getBE b)).toNat = getBE b := by simp only [UInt32.toNat_ofNat']; omega
  show putBE 4 (UInt32.ofNat (getBE b)).toNat = b
  rw [this, ← h]; exact putBE_getBE b

theorem getBE_be {α : Type} [Wire α] (x : α) : getBE (be x) = Wire.toNat x := by
  rw [be, getBE_putBE, Nat.mod_eq_of_lt (Wire.lt x)]

@[simp] theorem ofBE_be {α : Type} [Wire α] (x : α) : ofBE α (be x) = x := by
  rw [ofBE, getBE_be, Wire.ofNat_toNat]

/-- `n` zero bytes (`make([]byte, n)` and the pad types of ofp/pad.go:3-11). -/
def zeros (n : Nat) : Bytes := List.replicate n 0

@[simp] theorem zeros_length (n : Nat) : (zeros n).length = n := by simp [zeros]

end Verif
