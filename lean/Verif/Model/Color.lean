import Verif.Model.Vector
import Verif.Model.Image

/-!
# Colour conversion code, generic over the vector backend

`src/color/space.rs`, `src/color/primaries.rs`, `src/color/transfer.rs`.
-/

namespace Ezk
open FOps

/-- `[[f32; 3]; 3]`: `mij` is `mat[i][j]`. (`src/color/primaries.rs:75-106`, `src/color/space.rs:269-294`) -/
structure Mat (F : Type) where
  m00 : F
  m01 : F
  m02 : F
  m10 : F
  m11 : F
  m12 : F
  m20 : F
  m21 : F
  m22 : F

section
variable {F : Type} [FOps F]

/-- `max_value_for_bits`, `src/formats/mod.rs:25-27`. -/
def maxValueForBits (bits : Nat) : F := ofNat (2 ^ bits - 1)

/-! ## Primaries, `src/color/primaries.rs` -/

/-- `src/color/primaries.rs:75-79` -/
def ST240_RGB_TO_XYZ : Mat F :=
  ⟨lit 0.39031416, lit 0.20383073, lit 0.025401404,
   lit 0.3700937, lit 0.71034116, lit 0.11341577,
   lit 0.19004808, lit 0.08582816, lit 0.95024043⟩
/-- `src/color/primaries.rs:80-84` -/
def ST240_XYZ_TO_RGB : Mat F :=
  ⟨lit 3.506003, lit (-1.0092703), lit 0.026740361,
   lit (-1.7397907), lit 1.9292052, lit (-0.18375263),
   lit (-0.5440582), lit 0.027603257, lit 1.0636142⟩
/-- `src/color/primaries.rs:86-90` -/
def BT709_RGB_TO_XYZ : Mat F :=
  ⟨lit 0.41239083, lit 0.21263903, lit 0.01933082,
   lit 0.35758436, lit 0.7151687, lit 0.11919474,
   lit 0.1804808, lit 0.07219231, lit 0.95053214⟩
/-- `src/color/primaries.rs:91-95` -/
def BT709_XYZ_TO_RGB : Mat F :=
  ⟨lit 3.2409694, lit (-0.9692435), lit 0.055630032,
   lit (-1.537383), lit 1.8759671, lit (-0.20397685),
   lit (-0.49861073), lit 0.04155508, lit 1.0569714⟩
/-- `src/color/primaries.rs:97-101` -/
def BT2020_RGB_TO_XYZ : Mat F :=
  ⟨lit 0.63695806, lit 0.2627002, lit 0.0,
   lit 0.14461692, lit 0.6779981, lit 0.028072689,
   lit 0.16888095, lit 0.05930171, lit 1.060985⟩
/-- `src/color/primaries.rs:102-106` -/
def BT2020_XYZ_TO_RGB : Mat F :=
  ⟨lit 1.7166512, lit (-0.66668427), lit 0.017639855,
   lit (-0.3556708), lit 1.6164812, lit (-0.04277061),
   lit (-0.25336626), lit 0.01576853, lit 0.9421032⟩

/-- `rgb_to_xyz_mat`, `src/color/primaries.rs:16-24`. -/
def ColorPrimaries.rgbToXyzMat : ColorPrimaries → Mat F
  | .ST240 => ST240_RGB_TO_XYZ
  | .BT709 => BT709_RGB_TO_XYZ
  | .BT2020 => BT2020_RGB_TO_XYZ

/-- `xyz_to_rgb_mat`, `src/color/primaries.rs:27-35`. -/
def ColorPrimaries.xyzToRgbMat : ColorPrimaries → Mat F
  | .ST240 => ST240_XYZ_TO_RGB
  | .BT709 => BT709_XYZ_TO_RGB
  | .BT2020 => BT2020_XYZ_TO_RGB

/-- `rgb_to_xyz`, `src/color/primaries.rs:39-54`. -/
def rgbToXyz (B : Backend F) (fw : Mat F) (r g b : B.V) : B.V × B.V × B.V :=
  let x := B.vadd (B.vadd (B.vmulf r fw.m00) (B.vmulf g fw.m10)) (B.vmulf b fw.m20)
  let y := B.vadd (B.vadd (B.vmulf r fw.m01) (B.vmulf g fw.m11)) (B.vmulf b fw.m21)
  let z := B.vadd (B.vadd (B.vmulf r fw.m02) (B.vmulf g fw.m12)) (B.vmulf b fw.m22)
  (x, y, z)

/-- `xyz_to_rgb`, `src/color/primaries.rs:57-72`. -/
def xyzToRgb (B : Backend F) (bw : Mat F) (x y z : B.V) : B.V × B.V × B.V :=
  let r := B.vadd (B.vadd (B.vmulf x bw.m00) (B.vmulf y bw.m10)) (B.vmulf z bw.m20)
  let g := B.vadd (B.vadd (B.vmulf x bw.m01) (B.vmulf y bw.m11)) (B.vmulf z bw.m21)
  let b := B.vadd (B.vadd (B.vmulf x bw.m02) (B.vmulf y bw.m12)) (B.vmulf z bw.m22)
  (r, g, b)

/-! ## Transfer functions, `src/color/transfer.rs` -/

namespace Gamma
/-- `gamma::linear_to_scaled::<GAMMA, V>`, `src/color/transfer.rs:116-118`. -/
def linearToScaled (B : Backend F) (gamma : Nat) (i : B.V) : B.V :=
  B.vpowf i (div (lit 1.0) (div (ofNat gamma) (lit 10.0)))
/-- `gamma::scaled_to_linear::<GAMMA, V>`, `src/color/transfer.rs:121-123`. -/
def scaledToLinear (B : Backend F) (gamma : Nat) (i : B.V) : B.V :=
  B.vpowf i (div (ofNat gamma) (lit 10.0))
end Gamma

namespace Srgb
/-- `srgb::linear_to_scaled`, `src/color/transfer.rs:130-140`. -/
def linearToScaled (B : Backend F) (i : B.V) : B.V :=
  let mask := B.lef i (lit 0.0031308)
  let a := B.vmulf i (lit 12.92)
  let b := B.vsubf (B.vmul (B.splat (lit 1.055)) (B.vpowf i (div (lit 1.0) (lit 2.4)))) (lit 0.055)
  B.select a b mask
/-- `srgb::scaled_to_linear`, `src/color/transfer.rs:143-153`. -/
def scaledToLinear (B : Backend F) (i : B.V) : B.V :=
  let mask := B.lef i (lit 0.04045)
  let a := B.vdivf i (lit 12.92)
  let b := B.vpowf (B.vdivf (B.vaddf i (lit 0.055)) (lit 1.055)) (lit 2.4)
  B.select a b mask
end Srgb

namespace Sdr
/-- `sdr::linear_to_scaled`, `src/color/transfer.rs:160-170`. -/
def linearToScaled (B : Backend F) (i : B.V) : B.V :=
  let mask := B.lt i (B.splat (lit 0.01805397))
  let a := B.vmul (B.splat (lit 4.5)) i
  let b := B.vsubf (B.vmul (B.splat (lit 1.099)) (B.vpowf i (lit 0.45))) (lit 0.099)
  B.select a b mask
/-- `sdr::scaled_to_linear`, `src/color/transfer.rs:173-183`. -/
def scaledToLinear (B : Backend F) (i : B.V) : B.V :=
  let mask := B.ltf i (lit 0.081490956)
  let a := B.vdivf i (lit 4.5)
  let b := B.vpowf (B.vdivf (B.vaddf i (lit 0.0993)) (lit 1.099)) (div (lit 1.0) (lit 0.45))
  B.select a b mask
end Sdr

namespace Pq
/-- `src/color/transfer.rs:189` -/
def M1 : F := lit 0.15930176
/-- `src/color/transfer.rs:190` -/
def M2 : F := lit 78.84375
/-- `src/color/transfer.rs:192` -/
def C1 : F := lit 0.8359375
/-- `src/color/transfer.rs:193` -/
def C2 : F := lit 18.851563
/-- `src/color/transfer.rs:194` -/
def C3 : F := lit 18.6875
/-- `src/color/transfer.rs:196` -/
def L : F := lit 10000.0
/-- `bt2100_pq::linear_to_scaled`, `src/color/transfer.rs:200-211`. -/
def linearToScaled (B : Backend F) (i : B.V) : B.V :=
  let i := B.vmaxf i (lit 0.0)
  let i := B.vdivf i L
  let ym1 := B.vpowf i M1
  let a := B.vaddf (B.vmulf ym1 C2) C1
  let b := B.vaddf (B.vmulf ym1 C3) (lit 1.0)
  B.vpowf (B.vdiv a b) M2
/-- `bt2100_pq::scaled_to_linear`, `src/color/transfer.rs:215-225`. -/
def scaledToLinear (B : Backend F) (i : B.V) : B.V :=
  let i := B.vmaxf i (lit 0.0)
  let epow1dm2 := B.vpowf i (div (lit 1.0) M2)
  let a := B.vmaxf (B.vsubf epow1dm2 C1) (lit 0.0)
  let b := B.vsub (B.splat C2) (B.vmulf epow1dm2 C3)
  B.vmulf (B.vpowf (B.vdiv a b) (div (lit 1.0) M1)) L
end Pq

namespace Hlg
/-- `src/color/transfer.rs:232` -/
def A : F := lit 0.17883277
/-- `src/color/transfer.rs:233` -/
def B' : F := lit 0.28466892
/-- `src/color/transfer.rs:234` -/
def C : F := lit 0.5599107
/-- `bt2100_hlg::linear_to_scaled`, `src/color/transfer.rs:237-252`. -/
def linearToScaled (B : Backend F) (i : B.V) : B.V :=
  let i := B.vmaxf i (lit 0.0)
  let mask := B.lef i (div (lit 1.0) (lit 12.0))
  let a := B.vsqrt (B.vmulf i (lit 3.0))
  let b := B.vaddf (B.vmul (B.splat A) (B.vln (B.vsubf (B.vmul (B.splat (lit 12.0)) i) B'))) C
  B.select a b mask
/-- `bt2100_hlg::scaled_to_linear`, `src/color/transfer.rs:255-268`. -/
def scaledToLinear (B : Backend F) (i : B.V) : B.V :=
  let i := B.vmaxf i (lit 0.0)
  let mask := B.lef i (lit 0.5)
  let a := B.vdivf (B.vpowf i (lit 2.0)) (lit 3.0)
  let b := B.vdivf (B.vaddf (B.vpow (B.splat e) (B.vdivf (B.vsubf i C) A)) B') (lit 12.0)
  B.select a b mask
end Hlg

/-- `ColorTransfer::linear_to_scaled_v` for one vector, `src/color/transfer.rs:38-72` (the array version loops
over independent vectors). -/
def ColorTransfer.linearToScaledV (t : ColorTransfer) (B : Backend F) (i : B.V) : B.V :=
  match t with
  | .Linear => i
  | .Gamma22 => Gamma.linearToScaled B 22 i
  | .Gamma28 => Gamma.linearToScaled B 28 i
  | .SRGB => Srgb.linearToScaled B i
  | .SDR => Sdr.linearToScaled B i
  | .BT2100PQ => Pq.linearToScaled B i
  | .BT2100HLG => Hlg.linearToScaled B i

/-- `ColorTransfer::scaled_to_linear_v` for one vector, `src/color/transfer.rs:75-109`. -/
def ColorTransfer.scaledToLinearV (t : ColorTransfer) (B : Backend F) (i : B.V) : B.V :=
  match t with
  | .Linear => i
  | .Gamma22 => Gamma.scaledToLinear B 22 i
  | .Gamma28 => Gamma.scaledToLinear B 28 i
  | .SRGB => Srgb.scaledToLinear B i
  | .SDR => Sdr.scaledToLinear B i
  | .BT2100PQ => Pq.scaledToLinear B i
  | .BT2100HLG => Hlg.scaledToLinear B i

/-! ## Colour spaces, `src/color/space.rs` -/

/-- `$yuv_to_rgb` of `make_matrices!`, `src/color/space.rs:273-278`. -/
def makeYuvToRgb (kr kg kb : F) : Mat F :=
  ⟨lit 1.0, lit 1.0, lit 1.0,
   lit 0.0, mul (neg (div kb kg)) (sub (lit 2.0) (mul (lit 2.0) kb)), sub (lit 2.0) (mul (lit 2.0) kb),
   sub (lit 2.0) (mul (lit 2.0) kr), mul (neg (div kr kg)) (sub (lit 2.0) (mul (lit 2.0) kr)), lit 0.0⟩

/-- `$rgb_to_yuv` of `make_matrices!`, `src/color/space.rs:280-285`. -/
def makeRgbToYuv (kr kg kb : F) : Mat F :=
  ⟨kr, kg, kb,
   mul (lit (-0.5)) (div kr (sub (lit 1.0) kb)), mul (lit (-0.5)) (div kg (sub (lit 1.0) kb)), lit 0.5,
   lit 0.5, mul (lit (-0.5)) (div kg (sub (lit 1.0) kr)), mul (lit (-0.5)) (div kb (sub (lit 1.0) kr))⟩

/-- `src/color/space.rs:291` -/
def BT601_YUV_TO_RGB : Mat F := makeYuvToRgb (lit 0.299) (lit 0.587) (lit 0.114)
/-- `src/color/space.rs:291` -/
def BT601_RGB_TO_YUV : Mat F := makeRgbToYuv (lit 0.299) (lit 0.587) (lit 0.114)
/-- `src/color/space.rs:292` -/
def BT709_YUV_TO_RGB : Mat F := makeYuvToRgb (lit 0.2126) (lit 0.7152) (lit 0.0722)
/-- `src/color/space.rs:292` -/
def BT709_RGB_TO_YUV : Mat F := makeRgbToYuv (lit 0.2126) (lit 0.7152) (lit 0.0722)
/-- `src/color/space.rs:293` -/
def BT2020_YUV_TO_RGB : Mat F := makeYuvToRgb (lit 0.2627) (lit 0.322) (lit 0.0593)
/-- `src/color/space.rs:293` -/
def BT2020_RGB_TO_YUV : Mat F := makeRgbToYuv (lit 0.2627) (lit 0.322) (lit 0.0593)

/-- `convert_yuv_to_rgb_matrix`, `src/color/space.rs:132-138`. -/
def convertYuvToRgbMatrix (B : Backend F) (mat : Mat F) (y u v : B.V) : B.V × B.V × B.V :=
  let r := B.vadd y (B.vmulf v mat.m20)
  let g := B.vadd y (B.vadd (B.vmulf v mat.m21) (B.vmulf u mat.m11))
  let b := B.vadd y (B.vmulf u mat.m12)
  (r, g, b)

/-- `prepare_rgb`, `src/color/space.rs:151-157`. -/
def prepareRgb (B : Backend F) (mat : Mat F) (u v : B.V) : B.V × B.V × B.V :=
  let r := B.vmulf v mat.m20
  let g := B.vadd (B.vmulf v mat.m21) (B.vmulf u mat.m11)
  let b := B.vmulf u mat.m12
  (r, g, b)

/-- Four RGB pixels `[[V; 3]; 4]`. (arguments of `src/color/space.rs:109-128`) -/
structure Rgb4 (V : Type) where
  p00 : V × V × V
  p01 : V × V × V
  p10 : V × V × V
  p11 : V × V × V

/-- `convert_yx4_uv_to_rgb_matrix`, `src/color/space.rs:141-187`. -/
def convertYx4UvToRgbMatrix (B : Backend F) (mat : Mat F) (y00 y01 y10 y11 u v : B.V) : Rgb4 B.V :=
  let (leftU, rightU) := B.zip u u
  let (leftV, rightV) := B.zip v v
  let (rLeft, gLeft, bLeft) := prepareRgb B mat leftU leftV
  let (rRight, gRight, bRight) := prepareRgb B mat rightU rightV
  let r00 := B.vadd y00 rLeft
  let g00 := B.vadd y00 gLeft
  let b00 := B.vadd y00 bLeft
  let r01 := B.vadd y01 rRight
  let g01 := B.vadd y01 gRight
  let b01 := B.vadd y01 bRight
  let r10 := B.vadd y10 rLeft
  let g10 := B.vadd y10 gLeft
  let b10 := B.vadd y10 bLeft
  let r11 := B.vadd y11 rRight
  let g11 := B.vadd y11 gRight
  let b11 := B.vadd y11 bRight
  ⟨(r00, g00, b00), (r01, g01, b01), (r10, g10, b10), (r11, g11, b11)⟩

/-- `convert_rgb_to_yuv_matrix`, `src/color/space.rs:190-205`. -/
def convertRgbToYuvMatrix (B : Backend F) (mat : Mat F) (r g b : B.V) : B.V × B.V × B.V :=
  let y := B.vadd (B.vadd (B.vmulf r mat.m00) (B.vmulf g mat.m01)) (B.vmulf b mat.m02)
  let u := B.vadd (B.vadd (B.vmulf r mat.m10) (B.vmulf g mat.m11)) (B.vmulf b mat.m12)
  let v := B.vadd (B.vadd (B.vmulf r mat.m20) (B.vmulf g mat.m21)) (B.vmulf b mat.m22)
  (y, u, v)

/-- `calc_y`, `src/color/space.rs:215-219`. -/
def calcY (B : Backend F) (mat : Mat F) (r g b : B.V) : B.V :=
  B.vadd (B.vadd (B.vmulf r mat.m00) (B.vmulf g mat.m01)) (B.vmulf b mat.m02)
/-- `calc_u`, `src/color/space.rs:222-226`. -/
def calcU (B : Backend F) (mat : Mat F) (r g b : B.V) : B.V :=
  B.vadd (B.vadd (B.vmulf r mat.m10) (B.vmulf g mat.m11)) (B.vmulf b mat.m12)
/-- `calc_v`, `src/color/space.rs:229-233`. -/
def calcV (B : Backend F) (mat : Mat F) (r g b : B.V) : B.V :=
  B.vadd (B.vadd (B.vmulf r mat.m20) (B.vmulf g mat.m21)) (B.vmulf b mat.m22)

/-- `[V; 4]`. (arguments of `src/color/space.rs:45-89`) -/
structure Arr4 (V : Type) where
  a0 : V
  a1 : V
  a2 : V
  a3 : V

/-- `rgbx4_to_yx4_uv_matrix`, `src/color/space.rs:208-267`. -/
def rgbx4ToYx4UvMatrix (B : Backend F) (mat : Mat F) (r g b : Arr4 B.V) : Arr4 B.V × B.V × B.V :=
  let y00 := calcY B mat r.a0 g.a0 b.a0
  let y01 := calcY B mat r.a1 g.a1 b.a1
  let y10 := calcY B mat r.a2 g.a2 b.a2
  let y11 := calcY B mat r.a3 g.a3 b.a3
  let rgb0_r := B.vadd r.a0 r.a2
  let rgb0_g := B.vadd g.a0 g.a2
  let rgb0_b := B.vadd b.a0 b.a2
  let rgb1_r := B.vadd r.a1 r.a3
  let rgb1_g := B.vadd g.a1 g.a3
  let rgb1_b := B.vadd b.a1 b.a3
  let (rgb0_r, rgb1_r) := B.unzip rgb0_r rgb1_r
  let (rgb0_g, rgb1_g) := B.unzip rgb0_g rgb1_g
  let (rgb0_b, rgb1_b) := B.unzip rgb0_b rgb1_b
  let r := B.vadd rgb0_r rgb1_r
  let g := B.vadd rgb0_g rgb1_g
  let b := B.vadd rgb0_b rgb1_b
  let r := B.vmulf r (lit 0.25)
  let g := B.vmulf g (lit 0.25)
  let b := B.vmulf b (lit 0.25)
  let u := calcU B mat r g b
  let v := calcV B mat r g b
  (⟨y00, y01, y10, y11⟩, u, v)

/-- `bt2100_yx4_uv_to_rgb`, `src/color/space.rs:299-324`. -/
def bt2100Yx4UvToRgb (B : Backend F) (f : B.V → B.V → B.V → B.V × B.V × B.V)
    (y00 y01 y10 y11 u v : B.V) : Rgb4 B.V :=
  let (leftU, rightU) := B.zip u u
  let (leftV, rightV) := B.zip v v
  let rgb00 := f y00 leftU leftV
  let rgb01 := f y01 rightU rightV
  let rgb10 := f y10 leftU leftV
  let rgb11 := f y11 rightU rightV
  ⟨rgb00, rgb01, rgb10, rgb11⟩

/-- `bt2100_rgbx4_to_yx4_uv`, `src/color/space.rs:327-347`. The repeated use of `yuv00` in the chroma sums is
what the code does. -/
def bt2100Rgbx4ToYx4Uv (B : Backend F) (f : B.V → B.V → B.V → B.V × B.V × B.V)
    (r g b : Arr4 B.V) : Arr4 B.V × B.V × B.V :=
  let yuv00 := f r.a0 g.a0 b.a0
  let yuv01 := f r.a1 g.a1 b.a1
  let yuv10 := f r.a2 g.a2 b.a2
  let yuv11 := f r.a3 g.a3 b.a3
  let u := B.vadd (B.vadd (B.vadd yuv00.2.1 yuv01.2.1) yuv00.2.1) yuv00.2.1
  let v := B.vadd (B.vadd (B.vadd yuv00.2.2 yuv01.2.2) yuv00.2.2) yuv00.2.2
  let u := B.vdivf u (lit 4.0)
  let v := B.vdivf v (lit 4.0)
  (⟨yuv00.1, yuv01.1, yuv10.1, yuv11.1⟩, u, v)

/-- `bt2100::xyz_to_lms`, `src/color/space.rs:356-362`. -/
def xyzToLms (B : Backend F) (x y z : B.V) : B.V × B.V × B.V :=
  let l := B.vadd (B.vadd (B.vmulf x (lit 0.3593)) (B.vmulf y (lit 0.6976))) (B.vmulf z (lit (-0.0359)))
  let m := B.vadd (B.vadd (B.vmulf x (lit (-0.1921))) (B.vmulf y (lit 1.1005))) (B.vmulf z (lit 0.0754))
  let s := B.vadd (B.vadd (B.vmulf x (lit 0.0071)) (B.vmulf y (lit 0.0748))) (B.vmulf z (lit 0.8433))
  (l, m, s)

/-- `bt2100::lms_to_xyz`, `src/color/space.rs:365-379`. -/
def lmsToXyz (B : Backend F) (l m s : B.V) : B.V × B.V × B.V :=
  let x := B.vadd (B.vadd (B.vmulf l (lit 2.0700345)) (B.vmulf m (lit (-1.3262312)))) (B.vmulf s (lit 0.20670232))
  let y := B.vadd (B.vadd (B.vmulf l (lit 0.3647498)) (B.vmulf m (lit 0.6805457))) (B.vmulf s (lit (-0.04532032)))
  let z := B.vadd (B.vadd (B.vmulf l (lit (-0.04978125))) (B.vmulf m (lit (-0.049197882)))) (B.vmulf s (lit 1.1880972))
  (x, y, z)

/-- `bt2100::pq_rgb_to_yuv`, `src/color/space.rs:382-417`. -/
def pqRgbToYuv (B : Backend F) (transfer : ColorTransfer) (mat : Mat F) (r g b : B.V) :
    B.V × B.V × B.V :=
  let r := transfer.scaledToLinearV B r
  let g := transfer.scaledToLinearV B g
  let b := transfer.scaledToLinearV B b
  let (x, y, z) := rgbToXyz B mat r g b
  let (l, m, s) := xyzToLms B x y z
  let l := Pq.linearToScaled B l
  let m := Pq.linearToScaled B m
  let s := Pq.linearToScaled B s
  let y := B.vadd (B.vmulf l (lit 0.5)) (B.vmulf m (lit 0.5))
  let u := B.vdivf (B.vadd (B.vadd (B.vmulf l (lit 6610.0)) (B.vmulf m (lit (-13613.0)))) (B.vmulf s (lit 7003.0))) (lit 4096.0)
  let v := B.vdivf (B.vadd (B.vadd (B.vmulf l (lit 17933.0)) (B.vmulf m (lit (-17390.0)))) (B.vmulf s (lit (-543.0)))) (lit 4096.0)
  (y, u, v)

/-- `bt2100::pq_yuv_to_rgb`, `src/color/space.rs:420-447`. -/
def pqYuvToRgb (B : Backend F) (transfer : ColorTransfer) (mat : Mat F) (y u v : B.V) :
    B.V × B.V × B.V :=
  let l := B.vadd (B.vadd y (B.vmulf u (lit 0.008609037))) (B.vmulf v (lit 0.111029625))
  let m := B.vadd (B.vadd y (B.vmulf u (lit (-0.008609037)))) (B.vmulf v (lit (-0.111029625)))
  let s := B.vadd (B.vadd y (B.vmulf u (lit 0.5600313))) (B.vmulf v (lit (-0.32062715)))
  let l := Pq.scaledToLinear B l
  let m := Pq.scaledToLinear B m
  let s := Pq.scaledToLinear B s
  let (x, y, z) := lmsToXyz B l m s
  let (r, g, b) := xyzToRgb B mat x y z
  (transfer.linearToScaledV B r, transfer.linearToScaledV B g, transfer.linearToScaledV B b)

/-- `bt2100::hlg_rgb_to_yuv`, `src/color/space.rs:450-483`. -/
def hlgRgbToYuv (B : Backend F) (transfer : ColorTransfer) (mat : Mat F) (r g b : B.V) :
    B.V × B.V × B.V :=
  let r := transfer.scaledToLinearV B r
  let g := transfer.scaledToLinearV B g
  let b := transfer.scaledToLinearV B b
  let (x, y, z) := rgbToXyz B mat r g b
  let (l, m, s) := xyzToLms B x y z
  let l := Hlg.linearToScaled B l
  let m := Hlg.linearToScaled B m
  let s := Hlg.linearToScaled B s
  let y := B.vmulf (B.vadd l m) (lit 0.5)
  let u := B.vadd (B.vsub (B.vmulf l (lit 0.88500977)) (B.vmulf m (lit 1.8225098))) (B.vmulf s (lit 0.9375))
  let v := B.vsub (B.vsub (B.vmulf l (lit 2.319336)) (B.vmulf m (lit 2.2490234))) (B.vmulf s (lit 0.0703125))
  (y, u, v)

/-- `bt2100::hlg_yuv_to_rgb`, `src/color/space.rs:486-519`. -/
def hlgYuvToRgb (B : Backend F) (transfer : ColorTransfer) (mat : Mat F) (y u v : B.V) :
    B.V × B.V × B.V :=
  let l := B.vadd (B.vadd y (B.vmul u (B.splat (lit 0.01571858)))) (B.vmul v (B.splat (lit 0.20958106)))
  let m := B.vadd (B.vadd y (B.vmul u (B.splat (lit (-0.01571858))))) (B.vmul v (B.splat (lit (-0.20958106))))
  let s := B.vadd (B.vadd y (B.vmul u (B.splat (lit 1.0212711)))) (B.vmul v (B.splat (lit (-0.6052745))))
  let l := Hlg.scaledToLinear B l
  let m := Hlg.scaledToLinear B m
  let s := Hlg.scaledToLinear B s
  let (x, y, z) := lmsToXyz B l m s
  let (r, g, b) := xyzToRgb B mat x y z
  (transfer.linearToScaledV B r, transfer.linearToScaledV B g, transfer.linearToScaledV B b)

namespace ColorSpace

/-- `ColorSpace::yuv_to_rgb`, `src/color/space.rs:28-43`. -/
def yuvToRgb (cs : ColorSpace) (B : Backend F) (transfer : ColorTransfer) (mat : Mat F) (y u v : B.V) :
    B.V × B.V × B.V :=
  match cs with
  | .BT601 => convertYuvToRgbMatrix B BT601_YUV_TO_RGB y u v
  | .BT709 => convertYuvToRgbMatrix B BT709_YUV_TO_RGB y u v
  | .BT2020 => convertYuvToRgbMatrix B BT2020_YUV_TO_RGB y u v
  | .ICtCpPQ => pqYuvToRgb B transfer mat y u v
  | .ICtCpHLG => hlgYuvToRgb B transfer mat y u v

/-- `ColorSpace::yx4_uv_to_rgb`, `src/color/space.rs:45-89`. -/
def yx4UvToRgb (cs : ColorSpace) (B : Backend F) (transfer : ColorTransfer) (mat : Mat F)
    (y00 y01 y10 y11 u v : B.V) : Rgb4 B.V :=
  match cs with
  | .BT601 => convertYx4UvToRgbMatrix B BT601_YUV_TO_RGB y00 y01 y10 y11 u v
  | .BT709 => convertYx4UvToRgbMatrix B BT709_YUV_TO_RGB y00 y01 y10 y11 u v
  | .BT2020 => convertYx4UvToRgbMatrix B BT2020_YUV_TO_RGB y00 y01 y10 y11 u v
  | .ICtCpPQ => bt2100Yx4UvToRgb B (pqYuvToRgb B transfer mat) y00 y01 y10 y11 u v
  | .ICtCpHLG => bt2100Yx4UvToRgb B (hlgYuvToRgb B transfer mat) y00 y01 y10 y11 u v

/-- `ColorSpace::rgb_to_yuv`, `src/color/space.rs:92-107`. -/
def rgbToYuv (cs : ColorSpace) (B : Backend F) (transfer : ColorTransfer) (mat : Mat F) (r g b : B.V) :
    B.V × B.V × B.V :=
  match cs with
  | .BT601 => convertRgbToYuvMatrix B BT601_RGB_TO_YUV r g b
  | .BT709 => convertRgbToYuvMatrix B BT709_RGB_TO_YUV r g b
  | .BT2020 => convertRgbToYuvMatrix B BT2020_RGB_TO_YUV r g b
  | .ICtCpPQ => pqRgbToYuv B transfer mat r g b
  | .ICtCpHLG => hlgRgbToYuv B transfer mat r g b

/-- `ColorSpace::rgbx4_to_yx4_uv`, `src/color/space.rs:109-128`. -/
def rgbx4ToYx4Uv (cs : ColorSpace) (B : Backend F) (transfer : ColorTransfer) (mat : Mat F)
    (r g b : Arr4 B.V) : Arr4 B.V × B.V × B.V :=
  match cs with
  | .BT601 => rgbx4ToYx4UvMatrix B BT601_RGB_TO_YUV r g b
  | .BT709 => rgbx4ToYx4UvMatrix B BT709_RGB_TO_YUV r g b
  | .BT2020 => rgbx4ToYx4UvMatrix B BT2020_RGB_TO_YUV r g b
  | .ICtCpPQ => bt2100Rgbx4ToYx4Uv B (pqRgbToYuv B transfer mat) r g b
  | .ICtCpHLG => bt2100Rgbx4ToYx4Uv B (hlgRgbToYuv B transfer mat) r g b

end ColorSpace
end
end Ezk
