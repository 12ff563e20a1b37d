/-
Outcomes of C++ code.

`Res α` is the result of running a modelled function:
* `ok a`    – normal return,
* `exn e`   – a C++ exception of class `e` leaves the function,
* `fatal f` – the process does not continue in a defined way.
-/
namespace Verif

/-- Bytes are `unsigned char`. See /repo/include/bytes.h l.14. -/
abbrev Byte := UInt8

/-- bytes of an ASCII string literal, the literals of /repo/src/chainhash_modes.cpp l.10-54 and others -/
def ascii (s : String) : List Byte := s.toList.map fun c => UInt8.ofNat c.toNat

/-- C++ exception classes thrown in /repo (`throw std::…`); `pointer` is the `throw new …` of
`/repo/src/chainhash_data.cpp` l.107, which no `catch (const std::exception&)` catches. -/
inductive Exn
  | invalidArgument
  | lengthError
  | runtimeError
  | logicError
  | pointer
deriving DecidableEq, Repr

/-- Outcomes after which the process is gone or undefined:
`terminate` = exception leaves a `noexcept` function, `abort` = failed `assert`,
`ub` = undefined behaviour, `diverge` = endless loop. `noexcept` as in /repo/include/api.h l.330-463, `assert` as in /repo/src/dataheader.cpp l.432-433. -/
inductive Fatal
  | terminate
  | abort
  | ub
  | diverge
deriving DecidableEq, Repr

/-- Result of running modelled code, see the head of this file; exceptions as thrown in /repo/src/bytes.cpp l.132 and elsewhere. -/
inductive Res (α : Type) where
  | ok (a : α)
  | exn (e : Exn)
  | fatal (f : Fatal)
deriving DecidableEq, Repr

namespace Res

variable {α β : Type}

/-- one statement after the other, as everywhere, for example /repo/src/api.cpp l.595-598 -/
protected def bind (x : Res α) (f : α → Res β) : Res β :=
  match x with
  | ok a => f a
  | exn e => exn e
  | fatal f => fatal f

/-- sequences of statements (`do` notation), for example /repo/src/api.cpp l.595-598 -/
instance : Monad Res where
  pure := ok
  bind := Res.bind

@[simp] theorem pure_eq (a : α) : (pure a : Res α) = ok a := rfl
@[simp] theorem bind_ok (a : α) (f : α → Res β) : (ok a >>= f) = f a := rfl
@[simp] theorem bind_exn (e : Exn) (f : α → Res β) : ((exn e : Res α) >>= f) = exn e := rfl
@[simp] theorem bind_fatal (x : Fatal) (f : α → Res β) : ((fatal x : Res α) >>= f) = fatal x := rfl

theorem bind_eq_ok {x : Res α} {f : α → Res β} {b : β} :
    (x >>= f) = ok b ↔ ∃ a, x = ok a ∧ f a = ok b := by
  cases x <;> simp

theorem bind_eq_exn {x : Res α} {f : α → Res β} {e : Exn} :
    (x >>= f) = exn e ↔ x = exn e ∨ ∃ a, x = ok a ∧ f a = exn e := by
  cases x <;> simp

theorem bind_eq_fatal {x : Res α} {f : α → Res β} {e : Fatal} :
    (x >>= f) = fatal e ↔ x = fatal e ∨ ∃ a, x = ok a ∧ f a = fatal e := by
  cases x <;> simp

/-- laws of sequences of statements; no code of its own (see /repo/src/api.cpp l.595-598 for a sequence) -/
instance : LawfulMonad Res := LawfulMonad.mk'
  (id_map := by intro α x; cases x <;> rfl)
  (pure_bind := by intros; rfl)
  (bind_assoc := by intro α β γ x f g; cases x <;> rfl)

@[simp] theorem map_ok (a : α) (f : α → β) : (f <$> (ok a : Res α)) = ok (f a) := rfl

/-- `noexcept`: an exception leaving the function calls `std::terminate`. For example /repo/include/api.h l.330-463. -/
def noexcept (x : Res α) : Res α :=
  match x with
  | ok a => ok a
  | exn _ => fatal .terminate
  | fatal f => fatal f

@[simp] theorem noexcept_ok (a : α) : noexcept (ok a) = ok a := rfl
@[simp] theorem noexcept_exn (e : Exn) : noexcept (exn e : Res α) = fatal .terminate := rfl
@[simp] theorem noexcept_fatal (f : Fatal) : noexcept (fatal f : Res α) = fatal f := rfl

/-- `try { x } catch (const std::exception& e) { h e }`; thrown pointers pass through. For example /repo/src/api.cpp l.566, l.606. -/
def catchStd (x : Res α) (h : Exn → Res α) : Res α :=
  match x with
  | ok a => ok a
  | exn .pointer => exn .pointer
  | exn e => h e
  | fatal f => fatal f

@[simp] theorem catchStd_ok (a : α) (h : Exn → Res α) : catchStd (ok a) h = ok a := rfl
@[simp] theorem catchStd_fatal (f : Fatal) (h : Exn → Res α) : catchStd (fatal f) h = fatal f := rfl

/-- `assert(b)` in a build with assertions on. For example /repo/src/dataheader.cpp l.432-433. -/
def assert (b : Bool) : Res Unit := if b then ok () else fatal .abort

/-- normal return (`return` as in /repo/src/api.cpp l.598) -/
def isOk : Res α → Bool
  | ok _ => true
  | _ => false

/-- the process is gone or undefined (see `Fatal`; for example /repo/src/dataheader.cpp l.432) -/
def isFatal : Res α → Bool
  | fatal _ => true
  | _ => false

end Res
end Verif
