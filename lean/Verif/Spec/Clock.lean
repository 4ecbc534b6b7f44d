import Verif.Spec.Text
import Verif.Model.Setting
/-! # Specification vocabulary: times of day as written -/
set_option autoImplicit false
namespace Verif.Spec
open Verif.Model Verif.Go

/-- AM or PM, as written. -/
inductive Meridian where
  | am | pm
deriving DecidableEq

/-- Two letters that spell AM or PM in any letter case. -/
def IsMeridian (t : List Char) : Meridian → Prop
  | .am => toLower t = ['a', 'm']
  | .pm => toLower t = ['p', 'm']

/-- One or two digits. -/
def IsShort (s : List Char) : Prop := IsNumeral s ∧ s.length ≤ 2

/-- The notations of a time of day. -/
inductive Notation where
  | hour (h mer : List Char)                          -- 3 PM
  | hm (h m : List Char)                              -- 15:04
  | hmMer (h m mer : List Char)                       -- 3:04 PM
  | hms (h m s : List Char)                           -- 15:04:05
  | hmsFrac (h m s f : List Char)                     -- 15:04:05.999
  | hmsMer (h m s mer : List Char)                    -- 3:04:05 PM
  | hmsFracMer (h m s f mer : List Char)              -- 3:04:05.999 PM

/-- The text. -/
def Notation.text : Notation → List Char
  | .hour h mer => h ++ ' ' :: mer
  | .hm h m => h ++ ':' :: m
  | .hmMer h m mer => h ++ ':' :: (m ++ ' ' :: mer)
  | .hms h m s => h ++ ':' :: (m ++ ':' :: s)
  | .hmsFrac h m s f => h ++ ':' :: (m ++ ':' :: (s ++ '.' :: f))
  | .hmsMer h m s mer => h ++ ':' :: (m ++ ':' :: (s ++ ' ' :: mer))
  | .hmsFracMer h m s f mer => h ++ ':' :: (m ++ ':' :: (s ++ '.' :: (f ++ ' ' :: mer)))

/-- Well written: numbers of one or two digits, a fraction of digits, a meridian. -/
def Notation.Written (mr : Meridian) : Notation → Prop
  | .hour h mer => IsShort h ∧ IsMeridian mer mr
  | .hm h m => IsShort h ∧ IsShort m
  | .hmMer h m mer => IsShort h ∧ IsShort m ∧ IsMeridian mer mr
  | .hms h m s => IsShort h ∧ IsShort m ∧ IsShort s
  | .hmsFrac h m s f => IsShort h ∧ IsShort m ∧ IsShort s ∧ IsNumeral f
  | .hmsMer h m s mer => IsShort h ∧ IsShort m ∧ IsShort s ∧ IsMeridian mer mr
  | .hmsFracMer h m s f mer => IsShort h ∧ IsShort m ∧ IsShort s ∧ IsNumeral f ∧ IsMeridian mer mr

/-- Hour on the 24 hour clock. -/
def hour24 : Meridian → Int → Int
  | .am, h => if h = 12 then 0 else h
  | .pm, h => if h < 12 then h + 12 else h

/-- The first nine digits of a fraction, in nanoseconds. -/
def nanos (f : List Char) : Int := number (f.take 9) * 10 ^ (9 - (f.take 9).length)

/-- A time of day with its granularity. -/
structure Clock where
  hour : Int
  minute : Int := 0
  second : Int := 0
  nano : Int := 0
  period : Period
deriving DecidableEq

/-- What a notation means; `none`: not a time of day.  With a meridian the hour is at most 12, except
that `15:04 PM` is accepted too and means 15:04. -/
def Notation.meaning (mr : Meridian) : Notation → Option Clock
  | .hour h _ =>
    if number h ≤ 12 then some { hour := hour24 mr (number h), period := .hour } else none
  | .hm h m =>
    if number h < 24 ∧ number m < 60 then some { hour := number h, minute := number m, period := .minute }
    else none
  | .hmMer h m _ =>
    if number h < 24 ∧ number m < 60 then
      some { hour := hour24 mr (number h), minute := number m, period := .minute }
    else none
  | .hms h m s =>
    if number h < 24 ∧ number m < 60 ∧ number s < 60 then
      some { hour := number h, minute := number m, second := number s, period := .second }
    else none
  | .hmsFrac h m s f =>
    if number h < 24 ∧ number m < 60 ∧ number s < 60 then
      some { hour := number h, minute := number m, second := number s, nano := nanos f, period := .second }
    else none
  | .hmsMer h m s _ =>
    if number h ≤ 12 ∧ number m < 60 ∧ number s < 60 then
      some { hour := hour24 mr (number h), minute := number m, second := number s, period := .second }
    else none
  | .hmsFracMer h m s f _ =>
    if number h ≤ 12 ∧ number m < 60 ∧ number s < 60 then
      some { hour := hour24 mr (number h), minute := number m, second := number s, nano := nanos f,
             period := .second }
    else none

instance (s : List Char) : Decidable (IsNumeral s) := by unfold IsNumeral; infer_instance
instance (s : List Char) : Decidable (IsShort s) := by unfold IsShort; infer_instance
instance (t : List Char) (m : Meridian) : Decidable (IsMeridian t m) := by
  cases m <;> (unfold IsMeridian; infer_instance)
instance (n : Notation) (m : Meridian) : Decidable (n.Written m) := by
  cases n <;> (unfold Notation.Written; infer_instance)

end Verif.Spec
