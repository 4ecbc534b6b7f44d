import Verif.Spec.Parser
import Verif.Props.Loader
/-! # Facts about the parser object -/
set_option autoImplicit false
namespace Verif.Lemmas
open Verif.Go Verif.Model Verif.Spec Verif.Data Verif.Props

theorem validateDateOrder_spec (o : List Char) :
    ((validateDateOrder o).2 = true ↔ (toUpper o).Perm "DMY".toList) ∧
    ((validateDateOrder o).2 = true → (validateDateOrder o).1 = toUpper o) := by
  have hl : (toUpper o).length = o.length := by simp [toUpper]
  unfold validateDateOrder
  by_cases h3 : o.length = 3
  · have hb : (o.length != 3) = false := by simp [h3]
    rw [hb]
    simp only [Bool.false_eq_true, if_false]
    rw [h3] at hl
    generalize toUpper o = u at hl ⊢
    match u, hl with
    | [a, b, c], _ =>
      constructor
      · by_cases hall : ([a, b, c].all fun r => r == 'D' || r == 'M' || r == 'Y') = true
        · rw [hall]
          simp only [Bool.not_true, Bool.false_eq_true, if_false]
          simp only [List.all_cons, List.all_nil, Bool.and_true, Bool.and_eq_true, Bool.or_eq_true, beq_iff_eq] at hall
          obtain ⟨ha, hb, hc⟩ := hall
          rcases ha with (rfl | rfl) | rfl <;> rcases hb with (rfl | rfl) | rfl <;> rcases hc with (rfl | rfl) | rfl <;>
            decide
        · have : (!([a, b, c].all fun r => r == 'D' || r == 'M' || r == 'Y')) = true := by rw [Bool.not_eq_true'] ; exact Bool.not_eq_true _ ▸ hall
          rw [if_pos this]
          refine ⟨fun h => by simp at h, fun h => ?_⟩
          exfalso
          apply hall
          rw [List.all_eq_true]
          intro x hx
          have := h.mem_iff.mp hx
          have e : "DMY".toList = ['D', 'M', 'Y'] := by decide
          rw [e] at this
          simp only [List.mem_cons, List.not_mem_nil, or_false] at this
          rcases this with rfl | rfl | rfl <;> decide
      · intro h
        split at h
        · simp at h
        · rename_i h1
          rw [if_neg h1]
          split at h
          · simp at h
          · rename_i h2
            rw [if_neg h2]
  · have hb : (o.length != 3) = true := by simp [h3]
    rw [hb]
    simp only [if_true]
    refine ⟨⟨fun h => by simp at h, fun h => ?_⟩, fun h => by simp at h⟩
    have := h.length_eq
    rw [hl] at this
    exact absurd this h3

theorem localeCfg_eq (c : PCfg) (l : LocaleInfo) : localeCfg c c.toInternal l = configFor c l := by
  unfold localeCfg configFor
  congr 1
  cases c.dateOrder with
  | none => rfl
  | some f =>
    dsimp only
    have h := validateDateOrder_spec (f l.name)
    by_cases hp : (toUpper (f l.name)).Perm "DMY".toList
    · rw [if_pos hp, if_pos (h.1.mpr hp), h.2 (h.1.mpr hp)]
    · rw [if_neg hp, if_neg (fun e => hp (h.1.mp e))]

theorem firstDate_cons (a : DateRes) (b : List DateRes) :
    firstDate (a :: b) = if a.isZero then firstDate b else some a := by
  unfold firstDate
  rw [List.find?_cons]
  cases h : a.isZero <;> simp

theorem tryRelative_eq (P : Parts) (cfg : Cfg) (ts : List (List Char)) :
    tryRelative P cfg ts = (firstDate (ts.map (P.relative cfg))).getD DateRes.zero := by
  induction ts with
  | nil => rfl
  | cons t r ih =>
    unfold tryRelative
    rw [List.map_cons, firstDate_cons]
    dsimp only
    cases h : (P.relative cfg t).isZero with
    | true => simpa using ih
    | false => simp

theorem tryCustom_eq (P : Parts) (cfg : Cfg) (formats ts : List (List Char)) :
    tryCustom P cfg formats ts = (firstDate (ts.map fun t => P.formatted cfg t formats)).getD DateRes.zero := by
  induction ts with
  | nil => rfl
  | cons t r ih =>
    unfold tryCustom
    rw [List.map_cons, firstDate_cons]
    dsimp only
    cases h : (P.formatted cfg t formats).isZero with
    | true => simpa using ih
    | false => simp

theorem tryAbsolute_eq (P : Parts) (cfg : Cfg) (ts : List (List Char)) :
    tryAbsolute P cfg ts = (firstDate (((ts.map fun t => P.popTz (P.strip t)).filter (·.1 ≠ [])).map
      fun x => applyTimezone cfg (P.absolute cfg x.1 x.2) x.2)).getD DateRes.zero := by
  induction ts with
  | nil => rfl
  | cons t r ih =>
    unfold tryAbsolute
    rw [List.map_cons, List.filter_cons]
    by_cases h0 : (P.popTz (P.strip t)).1 = []
    · have : ((stripTz P t).1 != []) = false := by simp [stripTz, h0]
      rw [this, if_neg (by simp), if_neg (by simp [h0])]
      exact ih
    · have : ((stripTz P t).1 != []) = true := by simp [stripTz, h0]
      have h1 : decide ((P.popTz (P.strip t)).1 ≠ []) = true := by simp [h0]
      rw [this, if_pos rfl, if_pos h1, List.map_cons, firstDate_cons]
      unfold stripTz
      dsimp only
      cases h : (applyTimezone cfg (P.absolute cfg (P.popTz (P.strip t)).1 (P.popTz (P.strip t)).2) (P.popTz (P.strip t)).2).isZero with
      | true => simpa using ih
      | false => simp

theorem tryNospace_eq (P : Parts) (cfg : Cfg) (ts : List (List Char)) :
    tryNospace P cfg ts = (firstDate (((ts.map fun t => P.popTz (P.strip t)).filter (·.1 ≠ [])).map
      fun x => applyTimezone cfg (P.nospace cfg x.1) x.2)).getD DateRes.zero := by
  induction ts with
  | nil => rfl
  | cons t r ih =>
    unfold tryNospace
    rw [List.map_cons, List.filter_cons]
    by_cases h0 : (P.popTz (P.strip t)).1 = []
    · have : ((stripTz P t).1 != []) = false := by simp [stripTz, h0]
      rw [this, if_neg (by simp), if_neg (by simp [h0])]
      exact ih
    · have : ((stripTz P t).1 != []) = true := by simp [stripTz, h0]
      have h1 : decide ((P.popTz (P.strip t)).1 ≠ []) = true := by simp [h0]
      rw [this, if_pos rfl, if_pos h1, List.map_cons, firstDate_cons]
      unfold stripTz
      dsimp only
      cases h : (applyTimezone cfg (P.nospace cfg (P.popTz (P.strip t)).1) (P.popTz (P.strip t)).2).isZero with
      | true => simpa using ih
      | false => simp

theorem zero_isZero : DateRes.zero.isZero = true := rfl

theorem firstDate_singleton (d : DateRes) : firstDate [d] = if d.isZero then none else some d := by
  unfold firstDate
  rw [List.find?_cons]
  cases h : d.isZero <;> simp

theorem firstDate_append (a b : List DateRes) : firstDate (a ++ b) = (firstDate a).or (firstDate b) := by
  unfold firstDate; exact List.find?_append

theorem firstDate_isZero {l : List DateRes} {d : DateRes} (h : firstDate l = some d) : d.isZero = false := by
  have := List.find?_some h
  simpa using this

theorem firstDate_map_locale (n : Name) (l : List DateRes) :
    firstDate (l.map fun dt => { dt with locale := n }) = (firstDate l).map fun dt => { dt with locale := n } := by
  induction l with
  | nil => rfl
  | cons a r ih =>
    rw [List.map_cons, firstDate_cons, firstDate_cons, ih]
    have : DateRes.isZero { a with locale := n } = a.isZero := rfl
    rw [this]
    split <;> rfl

/-- One kind of parser gives the first of its offers. -/
theorem tryType_eq (P : Parts) (cfg : Cfg) (l : LocaleInfo) (str : List Char) (formats : List (List Char)) (k : Kind) :
    (if (tryType P cfg l str formats k.code).isZero then none else some (tryType P cfg l str formats k.code)) =
      firstDate (offers P cfg l str formats k) := by
  have key : ∀ o : Option DateRes, (∀ d, o = some d → d.isZero = false) →
      (if (o.getD DateRes.zero).isZero then none else some (o.getD DateRes.zero)) = o := by
    intro o h
    cases o with
    | none => rfl
    | some d => simp [h d rfl]
  cases k with
  | timestamp => exact (firstDate_singleton _).symm
  | negativeTimestamp => exact (firstDate_singleton _).symm
  | relativeTime =>
    show (if (tryRelative _ _ _).isZero then none else some (tryRelative _ _ _)) = _
    rw [tryRelative_eq]; exact key _ fun d h => firstDate_isZero h
  | customFormat =>
    show (if (tryCustom _ _ _ _).isZero then none else some (tryCustom _ _ _ _)) = _
    rw [tryCustom_eq]; exact key _ fun d h => firstDate_isZero h
  | absoluteTime =>
    show (if (tryAbsolute _ _ _).isZero then none else some (tryAbsolute _ _ _)) = _
    rw [tryAbsolute_eq]; exact key _ fun d h => firstDate_isZero h
  | noSpacesTime =>
    show (if (tryNospace _ _ _).isZero then none else some (tryNospace _ _ _)) = _
    rw [tryNospace_eq]; exact key _ fun d h => firstDate_isZero h

theorem typeLoop_eq (P : Parts) (cfg : Cfg) (l : LocaleInfo) (str : List Char) (formats : List (List Char))
    (ks : List Kind) :
    typeLoop P cfg l str formats (ks.map Kind.code) =
      firstDate (ks.flatMap fun k => (offers P cfg l str formats k).map fun dt => { dt with locale := l.name }) := by
  induction ks with
  | nil => rfl
  | cons k r ih =>
    rw [List.map_cons, typeLoop, List.flatMap_cons, firstDate_append, firstDate_map_locale, ← tryType_eq, ← ih]
    cases h : (tryType P cfg l str formats k.code).isZero <;> simp

theorem localeLoop_eq (P : Parts) (c : PCfg) (str : List Char) (formats : List (List Char)) (ks : List Kind)
    (ls : List LocaleInfo) :
    (localeLoop P c c.toInternal (ks.map Kind.code) str formats ls).map (·.1) =
      firstDate (ls.flatMap fun l => ks.flatMap fun k =>
        (offers P (configFor c l) l str formats k).map fun dt => { dt with locale := l.name }) := by
  induction ls with
  | nil => rfl
  | cons l r ih =>
    rw [localeLoop, List.flatMap_cons, firstDate_append, ← typeLoop_eq, ← ih, localeCfg_eq]
    cases typeLoop P (configFor c l) l str formats (ks.map Kind.code) <;> simp

theorem typeLoop_locale {P : Parts} {cfg : Cfg} {l : LocaleInfo} {str : List Char} {formats : List (List Char)}
    {ts : List Nat} {dt : DateRes} (h : typeLoop P cfg l str formats ts = some dt) : dt.locale = l.name := by
  induction ts with
  | nil => simp [typeLoop] at h
  | cons t r ih =>
    unfold typeLoop at h
    dsimp only at h
    split at h
    · injection h with h; rw [← h]
    · exact ih h

theorem localeLoop_locale {P : Parts} {c : PCfg} {cfg : Cfg} {ts : List Nat} {str : List Char}
    {formats : List (List Char)} {ls : List LocaleInfo} {dt : DateRes} {l : LocaleInfo}
    (h : localeLoop P c cfg ts str formats ls = some (dt, l)) : dt.locale = l.name ∧ l ∈ ls := by
  induction ls with
  | nil => simp [localeLoop] at h
  | cons a r ih =>
    unfold localeLoop at h
    split at h
    · rename_i d hd
      injection h with h
      injection h with h1 h2
      subst h1; subst h2
      exact ⟨typeLoop_locale hd, by simp⟩
    · exact ⟨(ih h).1, List.mem_cons_of_mem _ (ih h).2⟩

theorem code_le (k : Kind) : k.code ≤ 5 := by cases k <;> decide

theorem find_codes (ks : List Kind) : (ks.map Kind.code).find? (fun t => decide (t > 5)) = none := by
  rw [List.find?_eq_none]
  intro x hx
  rw [List.mem_map] at hx
  obtain ⟨k, _, rfl⟩ := hx
  simpa using code_le k

theorem defaultTypes_eq : defaultTypes = (kindsOrDefault []).map Kind.code := by decide

/-! ## Applicable locales -/

theorem getLocaleData_name {x : Name} {l : LocaleInfo} (h : getLocaleData x = some l) : l.name = x := by
  unfold getLocaleData lookup at h
  rw [Option.map_eq_some_iff] at h
  obtain ⟨p, hp, rfl⟩ := h
  have h1 := List.mem_of_find?_eq_some hp
  have h2 := List.find?_some hp
  rw [C28_locales.2.1 p h1]
  simpa using h2

theorem localeInfos_names {L : List Name} (h : ∀ x ∈ L, KnownLocale x) : (localeInfos L).map (·.name) = L := by
  unfold localeInfos
  induction L with
  | nil => rfl
  | cons a r ih =>
    have ha := (lookup_isSome localeData a).mpr (h a (by simp))
    rw [Option.isSome_iff_exists] at ha
    obtain ⟨i, hi⟩ := ha
    have : getLocaleData a = some i := hi
    rw [List.filterMap_cons, this, List.map_cons, getLocaleData_name this, ih fun x hx => h x (List.mem_cons_of_mem _ hx)]

/-- The locale data is the built-in one. -/
def BuiltIn (l : LocaleInfo) : Prop := getLocaleData l.name = some l

theorem localeInfos_builtin {L : List Name} : ∀ l ∈ localeInfos L, BuiltIn l := by
  intro l hl
  unfold localeInfos at hl
  rw [List.mem_filterMap] at hl
  obtain ⟨x, _, hx⟩ := hl
  unfold BuiltIn
  rw [getLocaleData_name hx]; exact hx

theorem checkPrevious_mem {P : Parts} {cfg : Cfg} {strs : List (List Char)} {ls : List LocaleInfo} {l : LocaleInfo}
    (h : checkPrevious P cfg strs ls = some l) : l ∈ ls := by
  induction ls with
  | nil => simp [checkPrevious] at h
  | cons a r ih =>
    unfold checkPrevious at h
    split at h
    · injection h with h; simp [h]
    · exact List.mem_cons_of_mem _ (ih h)

theorem applicableLoop_spec (P : Parts) (cfg : Cfg) (strs : List (List Char)) (ls : List LocaleInfo) :
    ∀ (res : List LocaleInfo) (tr : List Name), (∀ x, x ∈ tr ↔ x ∈ res.map (·.name)) →
      (∀ l ∈ (applicableLoop P cfg strs ls res tr).1, l ∈ res ∨ l ∈ ls) ∧
      (∀ x, x ∈ (applicableLoop P cfg strs ls res tr).2 ↔ x ∈ (applicableLoop P cfg strs ls res tr).1.map (·.name)) := by
  induction ls with
  | nil => intro res tr h; exact ⟨fun l hl => Or.inl hl, h⟩
  | cons a r ih =>
    intro res tr h
    unfold applicableLoop
    split
    · obtain ⟨h1, h2⟩ := ih res tr h
      exact ⟨fun l hl => (h1 l hl).imp id (List.mem_cons_of_mem _), h2⟩
    · split
      · obtain ⟨h1, h2⟩ := ih (res ++ [a]) (a.name :: tr) (by intro x; simp [h x, or_comm])
        refine ⟨fun l hl => ?_, h2⟩
        rcases h1 l hl with h | h
        · rw [List.mem_append, List.mem_singleton] at h
          rcases h with h | h
          · exact Or.inl h
          · right; rw [h]; simp
        · exact Or.inr (List.mem_cons_of_mem _ h)
      · obtain ⟨h1, h2⟩ := ih res tr h
        exact ⟨fun l hl => (h1 l hl).imp id (List.mem_cons_of_mem _), h2⟩

end Verif.Lemmas
