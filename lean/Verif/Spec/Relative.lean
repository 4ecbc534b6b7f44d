import Verif.Spec.Text
import Verif.Spec.Clock
import Verif.Spec.Calendar
/-! # Specification vocabulary: relative dates as written -/
set_option autoImplicit false
namespace Verif.Spec
open Verif.Model Verif.Go

/-- Units of relative dates. -/
inductive RelUnit where
  | decade | year | month | week | day | hour | minute | second
deriving DecidableEq

/-- As written (English, singular: what translation produces). -/
def RelUnit.name : RelUnit → List Char
  | .decade => "decade".toList | .year => "year".toList | .month => "month".toList | .week => "week".toList
  | .day => "day".toList | .hour => "hour".toList | .minute => "minute".toList | .second => "second".toList

/-- Letter, digit or underscore (ASCII). -/
def IsWordChar (c : Char) : Prop := c.isAlphanum = true ∨ c = '_'

/-- ASCII white space. -/
def IsBlank (c : Char) : Prop := c = ' ' ∨ c = '\t' ∨ c = '\n' ∨ c = '\x0c' ∨ c = '\r'

/-- Characters between words: no word characters and no brackets. -/
def Filler (s : List Char) : Prop :=
  ∀ c ∈ s, ¬ IsWordChar c ∧ c ∉ ['{', '}', '(', ')', '<', '>', '[', ']']

/-- An amount with its unit: `12 day`, `1.5hour`. -/
structure Item where
  whole : List Char
  frac : Option (Char × List Char) := none
  gap : List Char
  unit : RelUnit

/-- The amount as written. -/
def Item.amount (i : Item) : List Char :=
  i.whole ++ match i.frac with
    | none => []
    | some (c, f) => c :: f

def Item.text (i : Item) : List Char := i.amount ++ (i.gap ++ i.unit.name)

/-- Well written: digits, perhaps a full stop or comma with more digits, white space, unit. -/
structure Item.OK (i : Item) : Prop where
  whole : IsNumeral i.whole
  sep : ∀ c f, i.frac = some (c, f) → c = '.' ∨ c = ','
  digits : ∀ c f, i.frac = some (c, f) → ∀ x ∈ f, x.isDigit = true
  gap : ∀ c ∈ i.gap, IsBlank c

/-- A relative date: `in 1 year, 2 month`, `3 day 1 hour ago`, … -/
structure Phrase where
  /-- the word "in" and what separates it from the first amount -/
  lead : Option (List Char × List Char) := none
  first : Item
  /-- further amounts, each with what separates it from the one before -/
  more : List (List Char × Item) := []
  /-- the word "ago" and what separates it from the last amount -/
  ago : Option (List Char × List Char) := none
  /-- anything after it -/
  tail : List Char := []

def Phrase.items (p : Phrase) : List Item := p.first :: p.more.map (·.2)

def Phrase.text (p : Phrase) : List Char :=
  (match p.lead with | none => [] | some (w, g) => w ++ g) ++
  (p.first.text ++ (p.more.flatMap (fun x => x.1 ++ x.2.text) ++
  ((match p.ago with | none => [] | some (g, w) => g ++ w) ++ p.tail)))

/-- Well written. -/
structure Phrase.OK (p : Phrase) : Prop where
  items : ∀ i ∈ p.items, i.OK
  lead : ∀ w g, p.lead = some (w, g) → toLower w = "in".toList ∧ g ≠ [] ∧ Filler g
  more : ∀ x ∈ p.more, x.1 ≠ [] ∧ Filler x.1
  ago : ∀ g w, p.ago = some (g, w) → toLower w = "ago".toList ∧ g ≠ [] ∧ Filler g
  /-- no unit twice -/
  distinct : (p.items.map Item.unit).Nodup

/-- The phrase points to the future. -/
def Phrase.future (p : Phrase) (src : DateSource) : Bool :=
  p.ago.isNone && (p.lead.isSome || src == .future)

/-- The digits behind the full stop or comma. -/
def Item.decimals (i : Item) : List Char :=
  match i.frac with
  | none => []
  | some (_, f) => f

/-- The amount is not a whole number: some digit behind the full stop or comma is not 0. -/
def Item.fractional (i : Item) : Bool := i.decimals.any (· != '0')

/-- All amounts are whole numbers (`3`, `3.0`). -/
def Phrase.Whole (p : Phrase) : Prop := ∀ i ∈ p.items, i.fractional = false

/-- The (whole) amount given for a unit. -/
def Phrase.amount (p : Phrase) (u : RelUnit) : Int :=
  match p.items.find? (fun i => i.unit == u) with
  | some i => number i.whole
  | none => 0

/-- The unit is mentioned. -/
def Phrase.has (p : Phrase) (u : RelUnit) : Bool := p.items.any (fun i => i.unit == u)

/-- The finest unit mentioned; weeks count as days, decades as years. -/
def Phrase.period (p : Phrase) : Period :=
  if p.has .second then .second
  else if p.has .minute then .minute
  else if p.has .hour then .hour
  else if p.has .day || p.has .week then .day
  else if p.has .month then .month
  else .year

/-- Amounts that stay within Go's number ranges: a duration is an `int64` of nanoseconds. -/
structure Phrase.InRange (p : Phrase) : Prop where
  all : ∀ u, p.amount u ≤ 1000000000
  hours : p.amount .hour ≤ 2562047
  minutes : p.amount .minute ≤ 153722867

/-- Moving a time by calendar years, months and days.  With `keepEnd` the day of the month is first cut to the
length of the month reached; without it the surplus days run on into the next month. -/
def moved (keepEnd : Bool) (t : Time) (years months days : Int) : Time :=
  if keepEnd then
    let k := 12 * t.year + (t.month - 1) + 12 * years + months
    let c := goDate (k / 12) (k % 12 + 1) (min t.day (monthLen (k / 12) (k % 12 + 1)))
      t.hour t.minute t.second t.nsec t.loc
    goDate c.year c.month (c.day + days) c.hour c.minute c.second c.nsec c.loc
  else goDate (t.year + years) (t.month + months) (t.day + days) t.hour t.minute t.second t.nsec t.loc

/-- Moving a time by seconds. -/
def later (t : Time) (seconds : Int) : Time := { t with sec := t.sec + seconds }

/-- The current time, in the time zone that applies: the one in the string, else the default one. -/
def nowIn (cfg : Cfg) (sysNow : Time) (tz : Option Tz) : Time :=
  let now := if cfg.currentTime.isZero then sysNow else cfg.currentTime
  match tz, cfg.defaultTz with
  | some z, _ => { now with loc := Loc.fixed z.name z.offset }
  | none, some l => { now with loc := l }
  | none, none => now

/-- +1 to the future, −1 to the past. -/
def Phrase.sign (p : Phrase) (src : DateSource) : Int := if p.future src then 1 else -1

/-- The moment the phrase denotes. -/
def Phrase.moment (p : Phrase) (cfg : Cfg) (now : Time) : Time :=
  let s := p.sign cfg.dateSource
  later (moved cfg.preserveEndOfMonth now (s * (p.amount .year + 10 * p.amount .decade)) (s * p.amount .month)
      (s * (p.amount .day + 7 * p.amount .week)))
    (s * (3600 * p.amount .hour + 60 * p.amount .minute + p.amount .second))

end Verif.Spec
