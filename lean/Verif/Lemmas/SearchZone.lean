import Verif.Lemmas.SearchPieces
import Verif.Lemmas.Timezone
/-! # Lower-case words are not names of time zones -/
set_option autoImplicit false
namespace Verif.Lemmas
open Verif.Go Verif.Model Verif.Spec Verif.Data

/-- A character a pattern of a time zone can start with. -/
def zoneStart (c : Char) : Bool := c.isUpper || c == '+' || c == '-' || c == '−'

def startsZone : List TzItem → Bool
  | .lit c :: _ => zoneStart c
  | .utcGmt :: _ => true
  | _ => false

theorem main_starts : (utcMain.all fun e => startsZone e.items) = true := by decide +kernel
theorem named_starts : (namedMain.all fun e => startsZone e.items || e.items == litItems ['z', 'z', 'z']) = true := by decide +kernel
theorem alt_starts : ∀ k < 8, ((utcAlt k).all fun e => startsZone e.items) = true := by decide +kernel

theorem table_starts {t : List TzEntry} (h : IsTable t) : ∀ e ∈ t, startsZone e.items = true ∨ e.items = litItems ['z', 'z', 'z'] := by
  obtain ⟨main, ks, alt, named, rfl, h1, h2, h3, h4⟩ := h
  intro e he
  rcases List.mem_append.mp he with he | he
  · rcases List.mem_append.mp he with he | he
    · exact Or.inl <| List.all_eq_true.mp main_starts e (h1.mem_iff.mp he)
    · obtain ⟨k, hk, he⟩ := List.mem_flatMap.mp he
      have hk8 : k < 8 := List.mem_range.mp (h2.mem_iff.mp hk)
      exact Or.inl <| List.all_eq_true.mp (alt_starts k hk8) e ((h3 k).mem_iff.mp he)
  · have := List.all_eq_true.mp named_starts e (h4.mem_iff.mp he)
    simp only [Bool.or_eq_true, beq_iff_eq] at this
    exact this

theorem run_chr {p : Char → Bool} {b : Rx} {s t : MSt} (h : t ∈ (Rx.seq (.chr p) b).run s) : ∃ c ∈ s.rest, p c = true := by
  simp only [Rx.run] at h
  cases hr : s.rest with
  | nil => rw [hr] at h; simp at h
  | cons c r =>
    rw [hr] at h
    dsimp only at h
    split at h
    · exact ⟨c, by simp, by assumption⟩
    · simp at h

theorem run_items {items : List TzItem} (hi : startsZone items = true) {s t : MSt} (h : t ∈ (itemsRxCase items).run s) : ∃ c ∈ s.rest, zoneStart c = true := by
  match items with
  | [] => simp [startsZone] at hi
  | .lit c :: r =>
    obtain ⟨x, hx, hp⟩ := run_chr h
    simp at hp
    subst hp
    exact ⟨x, hx, hi⟩
  | .utcGmt :: r =>
    simp only [itemsRxCase, TzItem.rxCase] at h
    rw [Rx.run] at h
    obtain ⟨u, hu, _⟩ := List.mem_flatMap.mp h
    rw [Rx.run] at hu
    rcases List.mem_append.mp hu with hu | hu <;>
    · obtain ⟨x, hx, hp⟩ := run_chr hu
      simp at hp
      subst hp
      exact ⟨_, hx, by decide⟩
  | .optColon :: r => simp [startsZone] at hi
  | .dots :: r => simp [startsZone] at hi

theorem run_chr_rest {p : Char → Bool} {b : Rx} {s t : MSt} (h : t ∈ (Rx.seq (.chr p) b).run s) : ∃ c r, s.rest = c :: r ∧ p c = true ∧ t ∈ b.run { s with prev := some c, rest := r } := by
  simp only [Rx.run] at h
  cases hr : s.rest with
  | nil => rw [hr] at h; simp at h
  | cons c r =>
    rw [hr] at h
    dsimp only at h
    split at h
    · rename_i hp
      simp at h
      exact ⟨c, r, rfl, hp, h⟩
    · simp at h

theorem run_zzz {s t : MSt} (h : t ∈ (itemsRxCase (litItems ['z', 'z', 'z'])).run s) : ∃ r, s.rest = 'z' :: 'z' :: 'z' :: r := by
  obtain ⟨c1, r1, e1, p1, h⟩ := run_chr_rest h
  obtain ⟨c2, r2, e2, p2, h⟩ := run_chr_rest h
  obtain ⟨c3, r3, e3, p3, h⟩ := run_chr_rest h
  simp at p1 p2 p3 e2 e3
  subst p1 p2 p3 e3 e2
  exact ⟨r3, e1⟩

/-- A word with no capital letter, no sign and no `zzz` has nothing to do with time zones. -/
theorem no_zone {t : List TzEntry} (h : IsTable t) {w : List Char} (hw : ∀ c ∈ w, zoneStart c = false) (hz : ∀ a b, w ≠ a ++ 'z' :: 'z' :: 'z' :: b) : wordIsTz t w = false := by
  unfold wordIsTz
  rw [List.any_eq_false]
  intro e he hm
  unfold Rx.matches at hm
  obtain ⟨m, hm⟩ := Option.isSome_iff_exists.mp hm
  obtain ⟨b, p', e1, h2, h3⟩ := find_some w none m hm
  rcases table_starts h e he with hs | hs
  · obtain ⟨c, hc, hz⟩ := run_items hs h2
    rw [hw c (by rw [e1]; exact List.mem_append_right _ hc)] at hz
    simp at hz
  · rw [hs] at h2
    obtain ⟨r, hr⟩ := run_zzz h2
    dsimp only at hr
    exact hz m.before r (by rw [← hr]; exact e1)

end Verif.Lemmas
