import Verif.Model.Table
/-! Decidable equality of field values (the deriving handler does not cover nested inductives). -/
namespace Rmq

mutual
def FV.beq : FV → FV → Bool
  | .boolean a, .boolean b => a == b
  | .i8 a, .i8 b => a == b
  | .u8 a, .u8 b => a == b
  | .i16 a, .i16 b => a == b
  | .u16 a, .u16 b => a == b
  | .i32 a, .i32 b => a == b
  | .u32 a, .u32 b => a == b
  | .i64 a, .i64 b => a == b
  | .u64 a, .u64 b => a == b
  | .f32 a, .f32 b => a == b
  | .f64 a, .f64 b => a == b
  | .decimal a a', .decimal b b' => a == b && a' == b'
  | .utf8 a, .utf8 b => a == b
  | .array a, .array b => FV.beqs a b
  | .timestamp a, .timestamp b => a == b
  | .table a, .table b => FV.beqEs a b
  | .void, .void => true
  | .bytes a, .bytes b => a == b
  | .other a, .other b => a == b
  | _, _ => false
def FV.beqs : List FV → List FV → Bool
  | [], [] => true
  | a :: as, b :: bs => FV.beq a b && FV.beqs as bs
  | _, _ => false
def FV.beqE : Entry → Entry → Bool
  | .mk k v, .mk k' v' => k == k' && FV.beq v v'
def FV.beqEs : List Entry → List Entry → Bool
  | [], [] => true
  | a :: as, b :: bs => FV.beqE a b && FV.beqEs as bs
  | _, _ => false
end

mutual
theorem FV.beq_iff (a b : FV) : FV.beq a b = true ↔ a = b := by
  cases a with
  | array a => cases b <;> simp [FV.beq]; exact FV.beqs_iff a _
  | table a => cases b <;> simp [FV.beq]; exact FV.beqEs_iff a _
  | _ => cases b <;> simp [FV.beq]
theorem FV.beqs_iff (a b : List FV) : FV.beqs a b = true ↔ a = b := by
  cases a with
  | nil => cases b <;> simp [FV.beqs]
  | cons x a => cases b with
    | nil => simp [FV.beqs]
    | cons y b => simp [FV.beqs, FV.beq_iff x y, FV.beqs_iff a b]
theorem FV.beqE_iff (a b : Entry) : FV.beqE a b = true ↔ a = b := by
  cases a with
  | mk k v => cases b with
    | mk k' v' => simp [FV.beqE, FV.beq_iff v v']
theorem FV.beqEs_iff (a b : List Entry) : FV.beqEs a b = true ↔ a = b := by
  cases a with
  | nil => cases b <;> simp [FV.beqEs]
  | cons x a => cases b with
    | nil => simp [FV.beqEs]
    | cons y b => simp [FV.beqEs, FV.beqE_iff x y, FV.beqEs_iff a b]
end

instance : DecidableEq FV := fun a b => decidable_of_iff _ (FV.beq_iff a b)
instance : DecidableEq Entry := fun a b => decidable_of_iff _ (FV.beqE_iff a b)
end Rmq
