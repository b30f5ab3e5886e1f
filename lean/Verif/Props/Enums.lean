import Verif.Spec.Enums
import Verif.Model.Basic
namespace Traverse

theorem formatInt_inj {a b : Int} (h : formatInt a = formatInt b) : a = b := by
  have dig : ∀ n, '-' ∉ Nat.toDigits 10 n := by
    intro n hc
    have := Nat.isDigit_of_mem_toDigits (b := 10) (by decide) (by decide) hc
    revert this; decide
  have inj : ∀ m n, Nat.toDigits 10 m = Nat.toDigits 10 n → m = n := by
    intro m n h
    have := congrArg (fun l => Nat.ofDigitChars 10 l 0) h
    simpa [Nat.ofDigitChars_ten_toDigits] using this
  cases a <;> cases b <;> simp only [formatInt] at h
  · exact congrArg _ (inj _ _ h)
  · exact absurd (h ▸ List.mem_cons_self) (dig _)
  · exact absurd (h.symm ▸ List.mem_cons_self) (dig _)
  · have := inj _ _ (List.cons.inj h).2
    congr 1; omega

theorem asInt64_inj {a b : Nat} (ha : a < 2 ^ 64) (hb : b < 2 ^ 64) (h : asInt64 a = asInt64 b) : a = b := by
  unfold asInt64 at h
  split at h <;> split at h <;> omega

theorem numbered_inj {l : String} {a b : Nat} (ha : a < 2 ^ 64) (hb : b < 2 ^ 64) (h : numbered l a = numbered l b) :
    a = b := by
  unfold numbered at h
  have h := String.ofList_injective h
  have h := List.append_cancel_right h
  have h := List.append_cancel_left h
  exact asInt64_inj ha hb (formatInt_inj (List.cons.inj h).2)

theorem numbered_bracket (l : String) (v : Nat) : '(' ∈ (numbered l v).toList := by
  simp [numbered]

theorem Stringer.text_numbered (s : Stringer) (v : Nat) (hv : v < 2 ^ s.bits) (hf : s.first < 2 ^ s.bits)
    (hl : s.first + (s.index.length - 1) ≤ 2 ^ s.bits) (h : v < s.first ∨ s.first + (s.index.length - 1) ≤ v) :
    s.text v = some (numbered s.label v) := by
  unfold Stringer.text
  generalize s.index.length - 1 = n at *
  generalize 2 ^ s.bits = m at *
  generalize hfe : s.first = f at *
  rcases h with h | h
  · have h1 : (v + m - f) % m = v + m - f := Nat.mod_eq_of_lt (by omega)
    have h2 : v + m - f + f = v + m := by omega
    simp only [h1, h2, Nat.add_mod_right, Nat.mod_eq_of_lt hv]
    rw [if_pos (by omega)]
  · have h0 : v + m - f = (v - f) + m := by omega
    have h1 : (v + m - f) % m = v - f := by rw [h0, Nat.add_mod_right]; exact Nat.mod_eq_of_lt (by omega)
    have h2 : v - f + f = v := by omega
    simp only [h1, h2, Nat.mod_eq_of_lt hv]
    rw [if_pos (by omega)]

/-- Every enumerated type. -/
def Enum.all : List Enum :=
  [.entryType, .filterScope, .filterType, .globExtraction, .hibernation, .internalRole, .metric, .notification,
   .persistenceFormat, .resumeStrategy, .role, .sampleType, .skipTraversal, .subscription, .triStateBool, .wayPoint]

theorem Enum.mem_all (e : Enum) : e ∈ Enum.all := by cases e <;> decide

instance (e : Enum) (v : Nat) : Decidable (e.untyped v) := by unfold Enum.untyped; infer_instance

theorem Enum.documented_check :
    ∀ e ∈ Enum.all, ∀ p ∈ e.documented, ¬ e.untyped p.1 → e.text p.1 = some p.2 := by decide +kernel

theorem Enum.distinct_check :
    ∀ e ∈ Enum.all, ∀ p ∈ e.documented, ∀ q ∈ e.documented, p.2 = q.2 →
      p.1 = q.1 ∨ (e = .metric ∧ (p.1 = 5 ∨ p.1 = 6) ∧ (q.1 = 5 ∨ q.1 = 6)) := by decide +kernel

theorem Enum.bracket_check : ∀ e ∈ Enum.all, ∀ p ∈ e.documented, '(' ∉ p.2.toList := by decide +kernel

theorem Enum.range_check :
    ∀ e ∈ Enum.all, e ≠ .filterScope → ∀ v < 10, e.table.first ≤ v → v < e.table.first + (e.table.index.length - 1) →
      ∃ p ∈ e.documented, p.1 = v ∧ ¬ e.untyped v := by decide +kernel

theorem Enum.scope_check :
    ∀ v ∈ [0, 1, 2, 4, 8, 16, 32, 64], ∃ p ∈ Enum.filterScope.documented, p.1 = v ∧ ¬ Enum.filterScope.untyped v := by
  decide +kernel

theorem Enum.table_check :
    ∀ e ∈ Enum.all, 2 ^ e.table.bits = e.size ∧ e.table.first + (e.table.index.length - 1) ≤ 9 ∧
      e.table.label = e.typeName := by decide +kernel

theorem Enum.size_le (e : Enum) : e.size ≤ 2 ^ 64 := by cases e <;> decide

theorem Enum.size_ge (e : Enum) : 2 ^ 32 ≤ e.size := by cases e <;> decide

theorem Enum.text_numbered (e : Enum) (v : Nat) (hv : v < e.size)
    (hn : ∀ t, (v, t) ∈ e.documented → e.untyped v) : e.text v = some (numbered e.typeName v) := by
  by_cases he : e = .filterScope
  · subst he
    have g : ∀ k ∈ [0, 1, 2, 4, 8, 16, 32, 64], v ≠ k := by
      rintro k hk rfl
      obtain ⟨⟨_, t⟩, hp, rfl, hu⟩ := Enum.scope_check _ hk
      exact hu (hn t hp)
    simp only [Enum.text, Enum.typeName, filterScopeText, if_true]
    have g0 := g 0 (by decide); have g1 := g 1 (by decide); have g2 := g 2 (by decide); have g4 := g 4 (by decide)
    have g8 := g 8 (by decide); have g16 := g 16 (by decide); have g32 := g 32 (by decide); have g64 := g 64 (by decide)
    rw [if_neg (by omega), if_neg g4, if_neg g8, if_neg g16, if_neg g32, if_neg g64]
  · obtain ⟨h1, h2, h3⟩ := Enum.table_check e e.mem_all
    have h4 := e.size_ge
    rw [Enum.text, if_neg he, ← h3]
    refine Stringer.text_numbered _ v (by omega) (by omega) (by omega) ?_
    apply Classical.byContradiction
    intro hc
    obtain ⟨⟨_, t⟩, hp, rfl, hu⟩ := Enum.range_check e e.mem_all he v (by omega) (by omega) (by omega)
    exact hu (hn t hp)

theorem numbered_eq (l : String) (v : Nat) (hv : v < 2 ^ 63) : numbered l v = l ++ "(" ++ toString v ++ ")" := by
  have : formatInt (asInt64 v) = (toString v).toList := by
    rw [asInt64, if_pos hv]
    show formatInt (Int.ofNat v) = _
    rw [formatInt, Nat.toString_eq_ofList_toDigits, String.toList_ofList]
  apply String.toList_injective
  simp [numbered, this]

/-- C64, the documented names: every constant the sources document prints as documented. **Partial**: not the constants
declared without a type (all the notifications but the undefined one, and ScopeAll), see `C64_false_in_general`. -/
theorem C64_documented_partial (e : Enum) (v : Nat) (t : String) (h : (v, t) ∈ e.documented) (hu : ¬ e.untyped v) :
    e.text v = some t := Enum.documented_check e e.mem_all (v, t) h hu

example : (5, "poly-filter") ∈ Enum.filterType.documented ∧ ¬ Enum.filterType.untyped 5 := by decide

/-- C64, the other values: any value of the type with no documented name prints as the type's name and the number in
brackets; so the text can be asked of every value, there is no index out of range. Numbers from 2^63 are printed
negative, as the sources convert to int64. -/
theorem C64_other_values (e : Enum) (v : Nat) (hv : v < e.size) (hn : ∀ t, (v, t) ∉ e.documented) :
    (v < 2 ^ 63 → e.text v = some (e.typeName ++ "(" ++ toString v ++ ")")) ∧
    (2 ^ 63 ≤ v → e.text v = some (e.typeName ++ "(-" ++ toString (2 ^ 64 - v) ++ ")")) := by
  have h := e.text_numbered v hv (fun t ht => absurd ht (hn t))
  refine ⟨fun hb => by rw [h, numbered_eq _ _ hb], fun hb => ?_⟩
  rw [h]
  have hs := e.size_le
  have h1 : asInt64 v = Int.negSucc (2 ^ 64 - v - 1) := by
    rw [asInt64, if_neg (by omega), Int.negSucc_eq]
    omega
  have h2 : 2 ^ 64 - v - 1 + 1 = 2 ^ 64 - v := by omega
  congr 1
  apply String.toList_injective
  rw [numbered, h1, formatInt, h2, Nat.toString_eq_ofList_toDigits]
  simp

example : (99 : Nat) < Enum.subscription.size ∧ (∀ p ∈ Enum.subscription.documented, p.1 ≠ 99) ∧
    Enum.subscription.text 99 = some "Subscription(99)" := by decide +kernel

/-- C64, no panic: String returns for every value of every type. -/
theorem C64_total (e : Enum) (v : Nat) (hv : v < e.size) : ∃ t, e.text v = some t := by
  by_cases h : ∃ t, (v, t) ∈ e.documented ∧ ¬ e.untyped v
  · obtain ⟨t, h, hu⟩ := h
    exact ⟨t, C64_documented_partial e v t h hu⟩
  · exact ⟨_, e.text_numbered v hv (fun t ht => Classical.byContradiction fun hu => h ⟨t, ht, hu⟩)⟩

example : (18446744073709551615 : Nat) < Enum.metric.size ∧
    Enum.metric.text 18446744073709551615 = some "Metric(-1)" ∧ Enum.metric.text 0 = some "Metric(0)" := by decide +kernel

/-- C64, distinct values print differently. **Partial**: the two child file metrics print the same, see
`C64_false_in_general`. -/
theorem C64_distinct_partial (e : Enum) (v w : Nat) (hv : v < e.size) (hw : w < e.size) (h : e.text v = e.text w) :
    v = w ∨ (e = .metric ∧ (v = 5 ∨ v = 6) ∧ (w = 5 ∨ w = 6)) := by
  have side : ∀ v, v < e.size → (∃ t, (v, t) ∈ e.documented ∧ e.text v = some t) ∨
      e.text v = some (numbered e.typeName v) := by
    intro v hv
    by_cases h : ∃ t, (v, t) ∈ e.documented ∧ ¬ e.untyped v
    · obtain ⟨t, h, hu⟩ := h
      exact .inl ⟨t, h, C64_documented_partial e v t h hu⟩
    · exact .inr (e.text_numbered v hv (fun t ht => Classical.byContradiction fun hu => h ⟨t, ht, hu⟩))
  have hs := e.size_le
  rcases side v hv with ⟨t, ht, hvt⟩ | hvt <;> rcases side w hw with ⟨u, hu, hwu⟩ | hwu <;> rw [hvt, hwu] at h <;>
    have h := Option.some.inj h
  · exact Enum.distinct_check e e.mem_all (v, t) ht (w, u) hu h
  · exact absurd (h ▸ numbered_bracket _ _) (Enum.bracket_check e e.mem_all (v, t) ht)
  · exact absurd (h ▸ numbered_bracket _ _) (Enum.bracket_check e e.mem_all (w, u) hu)
  · exact .inl (numbered_inj (by omega) (by omega) h)

example : Enum.hibernation.text 1 ≠ Enum.hibernation.text 3 ∧ Enum.hibernation.text 7 ≠ Enum.hibernation.text 8 := by
  decide +kernel

/-- C64 is false in general: the metrics of child files found and of child files filtered out have the same text, and
the notification of the beginning prints as a number. -/
theorem C64_false_in_general :
    (∃ (e : Enum) (v w : Nat), v ≠ w ∧ (∃ t, (v, t) ∈ e.documented) ∧ (∃ t, (w, t) ∈ e.documented) ∧ e.text v = e.text w) ∧
    (∃ (e : Enum) (v : Nat) (t : String), (v, t) ∈ e.documented ∧ e.text v = some (e.typeName ++ "(" ++ toString v ++ ")") ∧
      e.text v ≠ some t) :=
  ⟨⟨.metric, 5, 6, by decide, ⟨"metric-no-of-child-files-found", by decide⟩, ⟨"metric-no-of-child-files-found", by decide⟩,
    by decide +kernel⟩,
   ⟨.notification, 1, "begin-notification", by decide, by decide +kernel, by decide +kernel⟩⟩

/-- C64, the scopes the rest of the model computes with are the documented constants: each value, as a number, is the one documented under
its name. -/
theorem C64_scopes :
    (Scope.undefined.toNat, "undefined-scope") ∈ Enum.filterScope.documented ∧ (Scope.tree.toNat, "tree-scope") ∈ Enum.filterScope.documented ∧
    (Scope.top.toNat, "top-scope") ∈ Enum.filterScope.documented ∧ (Scope.leaf.toNat, "leaf-scope") ∈ Enum.filterScope.documented ∧
    (Scope.intermediate.toNat, "intermediate-scope") ∈ Enum.filterScope.documented ∧
    (Scope.file.toNat, "file-scope") ∈ Enum.filterScope.documented ∧ (Scope.directory.toNat, "directory-scope") ∈ Enum.filterScope.documented ∧
    (Scope.custom.toNat, "custom-scope") ∈ Enum.filterScope.documented ∧ (Scope.all.toNat, "all-scopes") ∈ Enum.filterScope.documented := by
  decide +kernel

end Traverse
