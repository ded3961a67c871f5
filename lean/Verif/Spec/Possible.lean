import Verif.Spec.Layout
import Verif.Model.Image

/-!
# The images a program can have

Rust guarantees that no slice is longer than `isize::MAX` bytes.  A `Cropped` can only be made by `Cropped::new`, which
checks the window.
-/

namespace Ezk.Spec

/-- The image consists of slices of less than `n` bytes, its size is a pair of `usize`, and every crop on the way to it was
accepted by `crop`. -/
def Possible (n : Nat) : Img → Prop
  | .image i => i.width < 2 ^ 64 ∧ i.height < 2 ^ 64 ∧
      match i.buffer with
      | .whole s => s.len < n
      | .split ss => ∀ s ∈ ss, s.len < n
  | .raw _ w h ps _ => w < 2 ^ 64 ∧ h < 2 ^ 64 ∧ ∀ p ∈ ps, p.slice.len < n
  | .cropped t win => Possible n t ∧ t.crop win = .ok (.ok (.cropped t win))

end Ezk.Spec
