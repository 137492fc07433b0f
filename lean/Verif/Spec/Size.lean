/-
The size of a parsed object: the number of scalar values it stores.  Every field of every
structure counts, every element of every list counts (plus one for its slot), a pointer counts one
plus what it points to.

The instances list all the fields of each structure in order (the pattern would not typecheck
otherwise), so that nothing stored is left out.
-/
import Verif.Spec.Headers
import Verif.Spec.Hrd
import Verif.Spec.Vps
import Verif.Spec.Vui
import Verif.Spec.Scaling
import Verif.Spec.Rps
import Verif.Spec.SpsExt
import Verif.Spec.Sps
import Verif.Spec.Pps
import Verif.Spec.Pwt
import Verif.Spec.Slice
import Verif.Spec.Sei

namespace H265

/-- Number of scalar values stored in an object. -/
class Size (α : Type) where
  size : α → Nat

export Size (size)

instance : Size Nat where size _ := 1
instance : Size Int where size _ := 1
instance : Size Bool where size _ := 1
instance : Size UInt8 where size _ := 1
instance : Size ProfileType where size _ := 1
instance {α β : Type} [Size α] [Size β] : Size (α × β) where size p := size p.1 + size p.2
instance {α : Type} [Size α] : Size (Option α) where
  size | none => 1
       | some a => 1 + size a
instance {α : Type} [Size α] : Size (List α) where
  size l := l.length + (l.map size).sum

instance : Size NalUnitHeader where
  size := fun ⟨a0, a1, a2, a3⟩ => size a0 + size a1 + size a2 + size a3

instance : Size Aud where
  size := fun ⟨a0⟩ => size a0

instance : Size ProfileConstraints where
  size := fun ⟨a0, a1, a2, a3, a4, a5, a6, a7, a8, a9, a10, a11, a12, a13, a14⟩ => size a0 + size a1 + size
    a2 + size a3 + size a4 + size a5 + size a6 + size a7 + size a8 + size a9 + size a10 + size a11 + size
    a12 + size a13 + size a14

instance : Size ProfileInfo where
  size := fun ⟨a0, a1, a2, a3, a4, a5, a6, a7, a8, a9, a10, a11⟩ => size a0 + size a1 + size a2 + size a3 +
    size a4 + size a5 + size a6 + size a7 + size a8 + size a9 + size a10 + size a11

instance : Size ProfileTierLevel where
  size := fun ⟨a0, a1, a2, a3, a4⟩ => size a0 + size a1 + size a2 + size a3 + size a4

instance : Size SubLayerHrdEntry where
  size := fun ⟨a0, a1, a2, a3, a4⟩ => size a0 + size a1 + size a2 + size a3 + size a4

instance : Size HrdSubLayer where
  size := fun ⟨a0, a1, a2, a3, a4, a5, a6⟩ => size a0 + size a1 + size a2 + size a3 + size a4 + size a5 +
    size a6

instance : Size HrdParameters where
  size := fun ⟨a0, a1, a2, a3, a4, a5, a6, a7, a8, a9, a10, a11, a12, a13⟩ => size a0 + size a1 + size a2 +
    size a3 + size a4 + size a5 + size a6 + size a7 + size a8 + size a9 + size a10 + size a11 + size a12 +
    size a13

instance : Size SubLayerOrdering where
  size := fun ⟨a0, a1, a2⟩ => size a0 + size a1 + size a2

instance : Size VpsHrd where
  size := fun ⟨a0, a1, a2⟩ => size a0 + size a1 + size a2

instance : Size VpsBody where
  size := fun ⟨a0, a1, a2, a3, a4, a5, a6, a7, a8, a9, a10, a11, a12, a13, a14, a15, a16, a17, a18, a19,
    a20⟩ => size a0 + size a1 + size a2 + size a3 + size a4 + size a5 + size a6 + size a7 + size a8 + size
    a9 + size a10 + size a11 + size a12 + size a13 + size a14 + size a15 + size a16 + size a17 + size a18 +
    size a19 + size a20

instance : Size Vps where
  size := fun ⟨a0, a1⟩ => size a0 + size a1

instance : Size VuiParameters where
  size := fun ⟨a0, a1, a2, a3, a4, a5, a6, a7, a8, a9, a10, a11, a12, a13, a14, a15, a16, a17, a18, a19,
    a20, a21, a22, a23, a24, a25, a26, a27, a28, a29, a30, a31, a32, a33, a34, a35, a36, a37, a38, a39⟩ =>
    size a0 + size a1 + size a2 + size a3 + size a4 + size a5 + size a6 + size a7 + size a8 + size a9 + size
    a10 + size a11 + size a12 + size a13 + size a14 + size a15 + size a16 + size a17 + size a18 + size a19 +
    size a20 + size a21 + size a22 + size a23 + size a24 + size a25 + size a26 + size a27 + size a28 + size
    a29 + size a30 + size a31 + size a32 + size a33 + size a34 + size a35 + size a36 + size a37 + size a38 +
    size a39

instance : Size ScalingCoef where
  size := fun ⟨a0, a1⟩ => size a0 + size a1

instance : Size ScalingMatrix where
  size := fun ⟨a0, a1, a2, a3⟩ => size a0 + size a1 + size a2 + size a3

instance : Size ScalingListData where
  size := fun ⟨a0⟩ => size a0

instance : Size RpsEntry where
  size := fun ⟨a0, a1⟩ => size a0 + size a1

instance : Size RpsFlags where
  size := fun ⟨a0, a1⟩ => size a0 + size a1

instance : Size StRefPicSet where
  size := fun ⟨a0, a1, a2, a3, a4, a5, a6, a7, a8⟩ => size a0 + size a1 + size a2 + size a3 + size a4 + size
    a5 + size a6 + size a7 + size a8

instance : Size SpsRangeExtension where
  size := fun ⟨a0, a1, a2, a3, a4, a5, a6, a7, a8⟩ => size a0 + size a1 + size a2 + size a3 + size a4 + size
    a5 + size a6 + size a7 + size a8

instance : Size SpsMultilayerExtension where
  size := fun ⟨a0⟩ => size a0

instance : Size Sps3dExtension where
  size := fun ⟨a0, a1, a2, a3, a4, a5, a6, a7, a8, a9, a10, a11, a12, a13, a14, a15⟩ => size a0 + size a1 +
    size a2 + size a3 + size a4 + size a5 + size a6 + size a7 + size a8 + size a9 + size a10 + size a11 +
    size a12 + size a13 + size a14 + size a15

instance : Size SpsSccExtension where
  size := fun ⟨a0, a1, a2, a3, a4, a5, a6, a7, a8⟩ => size a0 + size a1 + size a2 + size a3 + size a4 + size
    a5 + size a6 + size a7 + size a8

instance : Size SpsSubLayerOrdering where
  size := fun ⟨a0, a1, a2⟩ => size a0 + size a1 + size a2

instance : Size LtRefPicSps where
  size := fun ⟨a0, a1⟩ => size a0 + size a1

instance : Size SpsBody where
  size := fun ⟨a0, a1, a2, a3, a4, a5, a6, a7, a8, a9, a10, a11, a12, a13, a14, a15, a16, a17, a18, a19,
    a20, a21, a22, a23, a24, a25, a26, a27, a28, a29, a30, a31, a32, a33, a34, a35, a36, a37, a38, a39, a40,
    a41, a42, a43, a44, a45, a46, a47, a48, a49, a50, a51, a52, a53, a54⟩ => size a0 + size a1 + size a2 +
    size a3 + size a4 + size a5 + size a6 + size a7 + size a8 + size a9 + size a10 + size a11 + size a12 +
    size a13 + size a14 + size a15 + size a16 + size a17 + size a18 + size a19 + size a20 + size a21 + size
    a22 + size a23 + size a24 + size a25 + size a26 + size a27 + size a28 + size a29 + size a30 + size a31 +
    size a32 + size a33 + size a34 + size a35 + size a36 + size a37 + size a38 + size a39 + size a40 + size
    a41 + size a42 + size a43 + size a44 + size a45 + size a46 + size a47 + size a48 + size a49 + size a50 +
    size a51 + size a52 + size a53 + size a54

instance : Size Sps where
  size := fun ⟨a0, a1⟩ => size a0 + size a1

instance : Size RefLayerOffsets where
  size := fun ⟨a0, a1, a2, a3⟩ => size a0 + size a1 + size a2 + size a3

instance : Size RefRegionOffsets where
  size := fun ⟨a0, a1, a2, a3⟩ => size a0 + size a1 + size a2 + size a3

instance : Size ResamplePhase where
  size := fun ⟨a0, a1, a2, a3⟩ => size a0 + size a1 + size a2 + size a3

instance : Size RefLocOffset where
  size := fun ⟨a0, a1, a2, a3, a4, a5, a6⟩ => size a0 + size a1 + size a2 + size a3 + size a4 + size a5 +
    size a6

instance : Size PpsMultilayerExtension where
  size := fun ⟨a0, a1, a2, a3, a4, a5⟩ => size a0 + size a1 + size a2 + size a3 + size a4 + size a5

instance : Size PpsSccExtension where
  size := fun ⟨a0, a1, a2, a3, a4, a5, a6, a7, a8, a9, a10, a11⟩ => size a0 + size a1 + size a2 + size a3 +
    size a4 + size a5 + size a6 + size a7 + size a8 + size a9 + size a10 + size a11

instance : Size PpsHead where
  size := fun ⟨a0, a1, a2, a3, a4, a5, a6, a7, a8, a9, a10, a11, a12, a13, a14, a15, a16, a17, a18, a19,
    a20, a21, a22, a23, a24, a25, a26, a27, a28, a29, a30, a31, a32, a33, a34, a35, a36, a37, a38, a39, a40,
    a41, a42, a43, a44⟩ => size a0 + size a1 + size a2 + size a3 + size a4 + size a5 + size a6 + size a7 +
    size a8 + size a9 + size a10 + size a11 + size a12 + size a13 + size a14 + size a15 + size a16 + size
    a17 + size a18 + size a19 + size a20 + size a21 + size a22 + size a23 + size a24 + size a25 + size a26 +
    size a27 + size a28 + size a29 + size a30 + size a31 + size a32 + size a33 + size a34 + size a35 + size
    a36 + size a37 + size a38 + size a39 + size a40 + size a41 + size a42 + size a43 + size a44

instance : Size PpsBody where
  size := fun ⟨a0, a1, a2⟩ => size a0 + size a1 + size a2

instance : Size Pps where
  size := fun ⟨a0, a1⟩ => size a0 + size a1

instance : Size LumaWeight where
  size := fun ⟨a0, a1⟩ => size a0 + size a1

instance : Size ChromaWeight where
  size := fun ⟨a0, a1, a2, a3⟩ => size a0 + size a1 + size a2 + size a3

instance : Size PredWeight where
  size := fun ⟨a0, a1⟩ => size a0 + size a1

instance : Size PredWeightTable where
  size := fun ⟨a0, a1, a2, a3, a4⟩ => size a0 + size a1 + size a2 + size a3 + size a4

instance : Size LtRefPicHead where
  size := fun ⟨a0, a1, a2, a3⟩ => size a0 + size a1 + size a2 + size a3

instance : Size LtRefPic where
  size := fun ⟨a0, a1⟩ => size a0 + size a1

instance : Size SliceHead where
  size := fun ⟨a0, a1, a2⟩ => size a0 + size a1 + size a2

instance : Size SliceBody where
  size := fun ⟨a0, a1, a2, a3, a4, a5, a6, a7, a8, a9, a10, a11, a12, a13, a14, a15, a16, a17, a18, a19,
    a20, a21, a22, a23, a24, a25, a26, a27, a28, a29, a30, a31, a32, a33, a34, a35, a36, a37, a38, a39, a40,
    a41, a42⟩ => size a0 + size a1 + size a2 + size a3 + size a4 + size a5 + size a6 + size a7 + size a8 +
    size a9 + size a10 + size a11 + size a12 + size a13 + size a14 + size a15 + size a16 + size a17 + size
    a18 + size a19 + size a20 + size a21 + size a22 + size a23 + size a24 + size a25 + size a26 + size a27 +
    size a28 + size a29 + size a30 + size a31 + size a32 + size a33 + size a34 + size a35 + size a36 + size
    a37 + size a38 + size a39 + size a40 + size a41 + size a42

instance : Size SliceSegmentHeader where
  size := fun ⟨a0, a1, a2⟩ => size a0 + size a1 + size a2

instance : Size SeiUserDataRegistered where
  size := fun ⟨a0, a1, a2⟩ => size a0 + size a1 + size a2

instance : Size SeiUserDataUnregistered where
  size := fun ⟨a0, a1, a2⟩ => size a0 + size a1 + size a2

instance : Size SeiAlphaChannelInfo where
  size := fun ⟨a0, a1, a2, a3, a4, a5, a6, a7⟩ => size a0 + size a1 + size a2 + size a3 + size a4 + size a5
    + size a6 + size a7

instance : Size SeiPrimaries where
  size := fun ⟨a0, a1⟩ => size a0 + size a1

instance : Size SeiMasteringDisplay where
  size := fun ⟨a0, a1, a2, a3, a4⟩ => size a0 + size a1 + size a2 + size a3 + size a4

instance : Size SeiContentLightLevel where
  size := fun ⟨a0, a1⟩ => size a0 + size a1

instance : Size SeiKneePoint where
  size := fun ⟨a0, a1⟩ => size a0 + size a1

instance : Size SeiKneeFunction where
  size := fun ⟨a0, a1, a2, a3, a4, a5, a6, a7, a8⟩ => size a0 + size a1 + size a2 + size a3 + size a4 + size
    a5 + size a6 + size a7 + size a8

instance : Size SeiLutEntry where
  size := fun ⟨a0, a1⟩ => size a0 + size a1

instance : Size SeiLut where
  size := fun ⟨a0, a1⟩ => size a0 + size a1

instance : Size SeiColourRemapping where
  size := fun ⟨a0, a1, a2, a3, a4, a5, a6, a7, a8, a9, a10, a11, a12, a13, a14⟩ => size a0 + size a1 + size
    a2 + size a3 + size a4 + size a5 + size a6 + size a7 + size a8 + size a9 + size a10 + size a11 + size
    a12 + size a13 + size a14

instance : Size SeiCcvPrimaries where
  size := fun ⟨a0, a1⟩ => size a0 + size a1

instance : Size SeiContentColourVolume where
  size := fun ⟨a0, a1, a2, a3, a4, a5, a6, a7, a8, a9, a10⟩ => size a0 + size a1 + size a2 + size a3 + size
    a4 + size a5 + size a6 + size a7 + size a8 + size a9 + size a10

instance : Size SeiAlternativeTransfer where
  size := fun ⟨a0⟩ => size a0

instance : Size SeiAmbientViewing where
  size := fun ⟨a0, a1, a2⟩ => size a0 + size a1 + size a2

instance : Size SeiUnknown where
  size := fun ⟨a0⟩ => size a0

instance : Size SeiPayload where
  size
    | .userDataRegistered s => size s
    | .userDataUnregistered s => size s
    | .masteringDisplay s => size s
    | .contentLightLevel s => size s
    | .kneeFunction s => size s
    | .colourRemapping s => size s
    | .contentColourVolume s => size s
    | .alternativeTransfer s => size s
    | .ambientViewing s => size s
    | .alphaChannelInfo s => size s
    | .unknown s => size s

instance : Size SeiMessage where
  size := fun ⟨a0, a1, a2⟩ => size a0 + size a1 + size a2

-- sanity: a list of three numbers stores three values in three slots
example : size ([7, 8, 9] : List Nat) = 6 := rfl
example : size (some (⟨1, 2, 3⟩ : SubLayerOrdering)) = 4 := rfl

end H265
