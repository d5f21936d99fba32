/-!
# Outcomes of C++ calls

A C++ call may return a value, throw an exception, produce a `NaN` (a division `0/0`
in a normalisation) or have undefined behaviour.  These are distinct results here, so
that no theorem can be true only because a Lean function was made total.
-/

namespace Verif

/-- Result of executing a piece of C++ (or Python) code.

* `val a`    : the call returned `a`
* `thrown e` : an exception was thrown
* `nan`      : a coordinate of the result is `NaN` (0/0 in a normalisation)
* `ub`       : the execution has undefined behaviour (out-of-bounds access, signed overflow) -/
inductive Outcome (α : Type) where
  | val (a : α)
  | thrown (e : String)
  | nan
  | ub
  deriving DecidableEq, Repr

namespace Outcome

/-- Sequencing: everything but a value aborts the computation. -/
def bind {α β : Type} (o : Outcome α) (f : α → Outcome β) : Outcome β :=
  match o with
  | val a => f a
  | thrown e => thrown e
  | nan => nan
  | ub => ub

instance : Monad Outcome where
  pure := val
  bind := bind

/-- The call threw an exception. -/
def isThrown {α : Type} : Outcome α → Prop
  | thrown _ => True
  | _ => False

/-- The call returned a value. -/
def isVal {α : Type} : Outcome α → Prop
  | val _ => True
  | _ => False

variable {α β : Type}

@[simp] theorem pure_eq (a : α) : (pure a : Outcome α) = val a := rfl
@[simp] theorem val_bind (a : α) (f : α → Outcome β) : (val a >>= f) = f a := rfl
@[simp] theorem thrown_bind (e : String) (f : α → Outcome β) :
    ((thrown e : Outcome α) >>= f) = thrown e := rfl
@[simp] theorem nan_bind (f : α → Outcome β) : ((nan : Outcome α) >>= f) = nan := rfl
@[simp] theorem ub_bind (f : α → Outcome β) : ((ub : Outcome α) >>= f) = ub := rfl
@[simp] theorem isThrown_thrown (e : String) : (thrown e : Outcome α).isThrown := trivial
@[simp] theorem not_isThrown_val (a : α) : ¬ (val a).isThrown := id
@[simp] theorem not_isThrown_nan : ¬ (nan : Outcome α).isThrown := id
@[simp] theorem not_isThrown_ub : ¬ (ub : Outcome α).isThrown := id
@[simp] theorem isVal_val (a : α) : (val a).isVal := trivial
@[simp] theorem not_isVal_thrown (e : String) : ¬ (thrown e : Outcome α).isVal := id
@[simp] theorem not_isVal_nan : ¬ (nan : Outcome α).isVal := id
@[simp] theorem not_isVal_ub : ¬ (ub : Outcome α).isVal := id

@[simp] theorem map_val (f : α → β) (a : α) : (f <$> (val a)) = val (f a) := rfl
@[simp] theorem map_thrown (f : α → β) (e : String) : (f <$> (thrown e : Outcome α)) = thrown e := rfl
@[simp] theorem map_nan (f : α → β) : (f <$> (nan : Outcome α)) = nan := rfl
@[simp] theorem map_ub (f : α → β) : (f <$> (ub : Outcome α)) = ub := rfl

theorem bind_eq_val {o : Outcome α} {f : α → Outcome β} {b : β} :
    (o >>= f) = val b ↔ ∃ a, o = val a ∧ f a = val b := by
  cases o <;> simp

end Outcome
end Verif
