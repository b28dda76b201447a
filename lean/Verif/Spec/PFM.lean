import Verif.Spec.Image

/-!
# Specification: portable float maps (C35)

http://www.pauldebevec.com/Research/HDR/PFM/: three lines of text (the type, the size, and the scale, which is positive for
big-endian samples), then the rows from the bottom to the top, the pixels of a row from left to right, the channels of a
pixel, each sample as four bytes.
-/
namespace Jxl.PFM

/-- The bytes of a 32-bit number, the most significant first. -/
def bigEndian (n : Nat) : List UInt8 := [UInt8.ofNat (n / 16777216), UInt8.ofNat (n / 65536), UInt8.ofNat (n / 256), UInt8.ofNat n]

/-- ASCII text. -/
def text (s : List Char) : List UInt8 := s.map (fun c => UInt8.ofNat c.toNat)

/-- The three lines of text. -/
def head (planes : List (List (List F32))) (h w : Nat) : List UInt8 :=
  text ((if planes.length = 1 then ['P', 'f'] else ['P', 'F']) ++ ['\n'] ++ Nat.toDigits 10 w ++ [' '] ++ Nat.toDigits 10 h ++ ['\n', '1', '.', '0', '\n'])

/-- A file; `bits v` is the IEEE representation of `v`. -/
def file (bits : F32 → Nat) (planes : List (List (List F32))) (h w : Nat) : List UInt8 :=
  head planes h w ++
    (List.range h).reverse.flatMap (fun y => (List.range w).flatMap (fun x => planes.flatMap (fun p => bigEndian (bits ((sample p y x).getD .nan)))))

end Jxl.PFM
