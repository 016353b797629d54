import Verif.PyUtils

/-!
# The TensorFlow batch wrapper

Model of `src/sdf_tools/utils_3d_tensorflow.py`.  Tensors are arrays; `tf.stack` raises on an empty
list and on unequal shapes (TensorFlow's documented behaviour).
-/

namespace Verif

namespace NpArr

/-- `tf.stack(arrays, 0)`; `none` is an exception. -/
def stack {α : Type} (as : List (NpArr α)) : Option (NpArr α) :=
  match as with
  | [] => none
  | a :: _ =>
    if as.all (fun b => b.shape == a.shape) then some ⟨as.length :: a.shape, as.flatMap (·.data)⟩
    else none

end NpArr

namespace Py

/-- `compute_sdf_and_gradient_batch` (`src/sdf_tools/utils_3d_tensorflow.py:6-15`): `envs[b]` and
`ress[b]` raise when `b` is out of range; `f` is `utils_3d.compute_sdf_and_gradient`.  The origins
are left out: the per-item result does not depend on them. -/
def batch {E R V G : Type} (f : R → E → Option (NpArr V × NpArr G)) (envs : List E) (ress : List R)
    (batchSize : Nat) : Option (NpArr V × NpArr G) := do
  let items ← (List.range batchSize).mapM fun b => do
    let e ← envs[b]?
    let r ← ress[b]?
    f r e
  let sdfs ← NpArr.stack (items.map Prod.fst)
  let grads ← NpArr.stack (items.map Prod.snd)
  pure (sdfs, grads)

end Py

end Verif
