import Verif.Spec.Parser
import Verif.Model.Concurrent
/-! # Specification: what several calls at once may return -/
set_option autoImplicit false
namespace Verif.Spec
open Verif.Go Verif.Model

/-- `i` comes before `j` in a list. -/
def Before {α : Type} (l : List α) (i j : α) : Prop := ∃ a b c, l = a ++ i :: (b ++ j :: c)

/-- The call with these arguments. -/
def callOf (a : Args) : Call := ⟨a.now, a.cfg, a.str, a.formats⟩

/-- What the call returns when the calls `earlier` were made before it, one after the other, on the object `obj`. -/
def sequentially (P : Parts) (obj : ParserSt) (earlier : List Args) (a : Args) : Except ParseErr DateRes :=
  (parse P a.now (afterCalls P obj (earlier.map callOf)) (some a.cfg) a.str a.formats).2

/-- `order` explains what was seen (linearizability): it has all calls that returned and only calls that were made,
each once; each returned what it returns when the calls are made one after the other in this order; and a call made
after another had returned comes later. -/
structure Explains (P : Parts) (args : Nat → Args) (obj : ParserSt) (seen : List Ev) (order : List Nat) : Prop where
  once : order.Nodup
  made : ∀ i ∈ order, Ev.invoke i ∈ seen
  all : ∀ i r, Ev.ret i r ∈ seen → i ∈ order
  result : ∀ earlier i later r, order = earlier ++ i :: later → Ev.ret i r ∈ seen →
    r = sequentially P obj (earlier.map args) (args i)
  time : ∀ i j r, Before seen (Ev.ret i r) (Ev.invoke j) → j ∈ order → Before order i j

end Verif.Spec
