import Verif.Spec.Frame

/-!
# Specification vocabulary: the statuses an operator can return
-/

namespace Aitisa

/-- The operators of the library. -/
inductive Operator where
  | create | full | reshape | squeeze | slice | duplicate | binary | sqrt | matmul | dot | conv2d | conv3d | pooling | relu | sigmoid
  | tanh | softmax | dropout | batchNorm
  deriving DecidableEq, Repr

/-- The operator that is called. -/
def Call.operator : Call → Operator
  | .create .. => .create
  | .full .. => .full
  | .reshape .. => .reshape
  | .squeeze .. => .squeeze
  | .slice .. => .slice
  | .duplicate .. => .duplicate
  | .binary .. => .binary
  | .sqrt .. => .sqrt
  | .matmul .. => .matmul
  | .dot .. => .dot
  | .conv2d .. => .conv2d
  | .conv3d .. => .conv3d
  | .pooling .. => .pooling
  | .relu .. => .relu
  | .sigmoid .. => .sigmoid
  | .tanh .. => .tanh
  | .softmax .. => .softmax
  | .dropout .. => .dropout
  | .batchNorm .. => .batchNorm

/-- The statuses that an operator returns.  (Convolutions: the statuses of the paths that end in a `return`.) -/
def Operator.statuses : Operator → List Status
  | .create => [.success, .allocFailed]
  | .full => [.success, .allocFailed]
  | .reshape => [.success, .allocFailed, .dimensionsMismatch]
  | .squeeze => [.success, .allocFailed, .dimensionsMismatch, .invalidArgument]
  | .slice => [.success, .allocFailed, .notSupported, .invalidArgument]
  | .duplicate => [.success, .allocFailed, .notSupported, .invalidArgument]
  | .binary => [.success, .allocFailed, .notSupported, .invalidArgument, .typeMismatch]
  | .sqrt => [.success, .allocFailed, .notSupported, .mathError]
  | .matmul => [.success, .allocFailed, .notSupported, .invalidArgument, .dimensionsMismatch]
  | .dot => [.success, .allocFailed, .notSupported, .invalidArgument, .dimensionsMismatch]
  | .conv2d => [.allocFailed, .notSupported, .dimensionsMismatch]
  | .conv3d => [.allocFailed, .notSupported, .dimensionsMismatch]
  | .pooling => [.success, .allocFailed, .notSupported, .invalidArgument, .dimensionsMismatch]
  | .relu => [.success, .allocFailed, .notSupported]
  | .sigmoid => [.success, .allocFailed, .notSupported]
  | .tanh => [.success, .allocFailed, .notSupported]
  | .softmax => [.success, .allocFailed, .notSupported]
  | .dropout => [.success, .allocFailed, .notSupported, .invalidArgument]
  | .batchNorm => [.success, .allocFailed, .notSupported, .invalidArgument, .dimensionsMismatch, .typeMismatch, .mathError]

/-- The values that may be found in place of the status of a convolution that ends without `return`. -/
def Call.register : Call → List Status
  | .conv2d j j' .. => j.toList ++ j'.toList
  | .conv3d j j' .. => j.toList ++ j'.toList
  | _ => []

end Aitisa
