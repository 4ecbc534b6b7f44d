import Verif.Lemmas.EnMonth
import Verif.Spec.Incomplete
/-! Helper lemmas: English times of day pass the stages before the individual parsers. -/
set_option autoImplicit false
namespace Verif.Lemmas
open Verif.Go Verif.Model Verif.Data Verif.Spec

def merLetters : Meridian → List Char
  | .am => ['a', 'm']
  | .pm => ['p', 'm']

def tmplA (a : Nat) : List Char := "12".toList.take a
def tmplB (a : Nat) : List Char := "34".toList.take a
def tmplC (a : Nat) : List Char := "56".toList.take a

/-- Times of day with numbers of one or two digits. -/
def clocksPlain : List Notation :=
  [1, 2].flatMap fun a => [1, 2].flatMap fun b => .hm (tmplA a) (tmplB b) :: [1, 2].map fun c => .hms (tmplA a) (tmplB b) (tmplC c)
def clocksMer (mr : Meridian) : List Notation :=
  [1, 2].flatMap fun a => .hour (tmplA a) (merLetters mr) :: [1, 2].flatMap fun b => .hmMer (tmplA a) (tmplB b) (merLetters mr) ::
    [1, 2].map fun c => .hmsMer (tmplA a) (tmplB b) (tmplC c) (merLetters mr)

def clocksPass (at_ glued : Bool) (l : List Notation) : Bool := l.all fun n => passesDate (timeText at_ glued n) n.text

theorem clocks_plain (at_ : Bool) : clocksPass at_ false clocksPlain = true := by cases at_ <;> decide +kernel
theorem clocks_am (glued : Bool) : clocksPass false glued (clocksMer .am) = true := by cases glued <;> decide +kernel
theorem clocks_pm (glued : Bool) : clocksPass false glued (clocksMer .pm) = true := by cases glued <;> decide +kernel
theorem clocks_at_am (glued : Bool) : clocksPass true glued (clocksMer .am) = true := by cases glued <;> decide +kernel
theorem clocks_at_pm (glued : Bool) : clocksPass true glued (clocksMer .pm) = true := by cases glued <;> decide +kernel

end Verif.Lemmas
