import Verif.Spec.PNG

/-! # Specification: the pixels of a Go `image.Image` (C61) -/
namespace Jxl

/-- The bytes of an `image.Gray` (one plane) or `image.NRGBA` (three or four planes; without alpha every pixel is opaque), in rows from the
top. -/
def pixBytes (planes : List (List (List Nat))) (h w : Nat) : List UInt8 :=
  (List.range h).flatMap (fun y => (List.range w).flatMap (fun x =>
    planes.map (fun m => UInt8.ofNat ((sample m y x).getD 0)) ++ (if planes.length = 3 then [255] else [])))

/-- The number of planes of the Go image of an image. -/
def shownPlanes (h : ImageHeader) : Nat := if h.colour.space = 1 then 1 else if h.alphaIndices = [] then 3 else 4

end Jxl
