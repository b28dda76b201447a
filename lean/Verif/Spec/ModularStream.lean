import Verif.Model.ModularStream
import Verif.Spec.Transforms
import Verif.Props.Modular

/-!
# Encoding an image as a modular stream
-/
namespace Jxl

/-- A channel without its samples. -/
def MChan.blank (c : MChan) : MChan := { c with buffer := [], pred := [] }

/-- Two channels of the same dimensions and subsampling. -/
def MChan.sameShape (c d : MChan) : Prop := c.width = d.width ∧ c.height = d.height ∧ c.hshift = d.hshift ∧ c.vshift = d.vshift ∧ c.forceWP = d.forceWP

/-- The default squeeze of `count` channels from `first` on, once the first of them is `w` by `h`: rows and columns in turn
until both sides are at most 8. -/
def defaultLoop (first count w h : Nat) : List SqueezeParam :=
  if w > 8 then
    ⟨true, true, first, count⟩ :: (if h > 8 then ⟨false, true, first, count⟩ :: defaultLoop first count ((w + 1) / 2) ((h + 1) / 2) else defaultLoop first count ((w + 1) / 2) h)
  else if h > 8 then ⟨false, true, first, count⟩ :: defaultLoop first count w ((h + 1) / 2)
  else []
  termination_by w + h

/-- There are two more channels, and the first of them has the same size. -/
def chromaLike (c : MChan) : List MChan → Bool
  | c1 :: _ :: _ => c1.width == c.width && c1.height == c.height
  | _ => false

/-- The default squeeze. The size is that of the first channel that is not a meta channel; two channels after it of the same
size (chroma) are squeezed in both directions first. -/
def defaultSqueeze (m : Nat) (chs : List MChan) : List SqueezeParam :=
  match chs.drop m with
  | [] => []
  | c :: rest =>
    let count := rest.length + 1
    (if chromaLike c rest then [⟨true, false, m + 1, 2⟩, ⟨false, false, m + 1, 2⟩] else []) ++
      (if c.height ≥ c.width ∧ c.height > 8 then ⟨false, true, m, count⟩ :: defaultLoop m count c.width ((c.height + 1) / 2)
      else defaultLoop m count c.width c.height)

/-- Steps on meta channels stay among them and are in place; they make more meta channels. -/
def MetaSteps : List SqueezeParam → Nat → Nat → Prop
  | [], m, m' => m' = m
  | sp :: sps, m, m' =>
    if sp.beginC < m then sp.inPlace = true ∧ sp.beginC + sp.numC ≤ m ∧ MetaSteps sps (m + sp.numC) m' else MetaSteps sps m m'

/-- Sizes leave room for rounding up. -/
def SizesOK (chs : List MChan) : Prop := ∀ c ∈ chs, c.width < 2 ^ 32 - 1 ∧ c.height < 2 ^ 32 - 1

/-- An encoder applies the transform `t` to a list of channels, of which the first `m` are meta channels. -/
inductive Applies (bitDepth : Nat) : TransformInfo → Nat → List MChan → Nat → List MChan → Prop
  | rct (t : TransformInfo) (m h w : Nat) (pre post : List MChan) (o0 o1 o2 : MChan) (htr : t.tr = 0) (hty : t.rctType < 42) (hb : t.beginC = pre.length)
      (h0 : o0.height = h ∧ o0.width = w ∧ Rect h w o0.buffer ∧ Is32 o0.buffer)
      (h1 : o1.height = h ∧ o1.width = w ∧ Rect h w o1.buffer ∧ Is32 o1.buffer)
      (h2 : o2.height = h ∧ o2.width = w ∧ Rect h w o2.buffer ∧ Is32 o2.buffer)
      (s1 : o0.sameShape o1) (s2 : o0.sameShape o2) :
      Applies bitDepth t m (pre ++ [o0, o1, o2] ++ post) m
        (pre ++ [(encodeRCT t.rctType o0 o1 o2).1, (encodeRCT t.rctType o0 o1 o2).2.1, (encodeRCT t.rctType o0 o1 o2).2.2] ++ post)
  | steps (t : TransformInfo) (m m' : Nat) (chs : List MChan) (htr : t.tr = 2) (hne : t.sp ≠ []) (hm : MetaSteps t.sp m m') (hs : StepsOK t.sp chs) (hsz : SizesOK chs) :
      Applies bitDepth t m chs m' (squeezeAll t.sp chs)
  | default (t : TransformInfo) (chs : List MChan) (hchs : chs ≠ []) (htr : t.tr = 2) (hne : t.sp = []) (hs : StepsOK (defaultSqueeze 0 chs) chs) (hsz : SizesOK chs) :
      Applies bitDepth t 0 chs 0 (squeezeAll (defaultSqueeze 0 chs) chs)
  | palette (t : TransformInfo) (m m' : Nat) (pre post : List MChan) (palch first : MChan) (outs : Nat → List (List Int)) (htr : t.tr = 1)
      (hd : 3 ≤ bitDepth ∧ bitDepth ≤ 29) (hpred : t.dPred ≤ 13 ∧ t.dPred ≠ 6) (hpal : palch.blank = MChan.new t.numC t.nbColours (-1) (-1) false)
      (hpr : Rect t.numC t.nbColours palch.buffer) (hf : first.pred = []) (hfr : Rect first.height first.width first.buffer) (h32 : Is32 first.buffer)
      (ho : ∀ c, c < t.numC → Rect first.height first.width (outs c) ∧ Small (outs c) ∧
        IsExpansion t (Img.ofRows palch.buffer) bitDepth first.height first.width c (Img.ofRows first.buffer) (Img.ofRows (outs c)))
      (hp : pre.length = t.beginC) (hn : 1 ≤ t.numC) (hpost : t.numC = 1 ∨ post = [])
      (hm : if t.beginC < m then m' + t.numC = m + 2 else m' = m + 1) :
      Applies bitDepth t m (pre ++ (List.range t.numC).map (fun c => { first with buffer := outs c }) ++ post) m' (palch :: pre ++ first :: post)

/-- ... and a list of transforms, one after the other. -/
inductive AppliesAll (bitDepth : Nat) : List TransformInfo → Nat → List MChan → Nat → List MChan → Prop
  | nil (m : Nat) (chs : List MChan) : AppliesAll bitDepth [] m chs m chs
  | cons {t : TransformInfo} {ts : List TransformInfo} {m m1 m2 : Nat} {chs chs1 chs2 : List MChan} (h : Applies bitDepth t m chs m1 chs1)
      (hs : AppliesAll bitDepth ts m1 chs1 m2 chs2) : AppliesAll bitDepth (t :: ts) m chs m2 chs2

/-- The contexts and numbers for all channels, in order. -/
def encodeAll (wp : WPParams) (tree : MATree) (streamIndex mult : Int) : List MChan → List MChan → Option (List (Int × Nat))
  | [], _ => some []
  | c :: cs, done => do
    let o ← encodeChannel c.blank.toChan (done.map MChan.toChan) wp tree done.length streamIndex mult c.buffer
    let os ← encodeAll wp tree streamIndex mult cs (done ++ [c])
    some (o ++ os)

end Jxl
