import Verif.Model.Tools.Run

/-!
# Builds with and without overflow checks

`cargo build` checks arithmetic for overflow and panics; `cargo build --release` wraps around.
-/

namespace Lrvm.Spec

/-- The build without checks does what the build with checks does, wherever that one does not panic (`none`). -/
def Agrees (debug release : Option α) : Prop := ∀ x, debug = some x → release = some x

/-- Components whose metadata do not depend on the build, unless the build with checks panics computing them. -/
def SameMetadata (D : Type u) [Bus D] : Prop :=
  ∀ d : D, Agrees (Bus.metadata .debug d) (Bus.metadata .release d)

end Lrvm.Spec
