import Verif.Proofs.Live3
/-
A session on a file system that changes is a session on a file system that does not.
-/
namespace Traverse
variable {σ κ : Type}

/-- The empty file system with an entry. -/
def FS.blank (e : Entry) : FS := if e.isDir then .dir e.name e.infoErr none [] else .file e.name e.infoErr none

theorem FS.blank_entry (e : Entry) : (FS.blank e).entry = e := by
  obtain ⟨n, d, ie⟩ := e
  cases d <;> rfl

theorem FS.entry_name (f : FS) : f.entry.name = f.name := by cases f <;> rfl
theorem FS.entry_isDir (f : FS) : f.entry.isDir = f.isDir := by cases f <;> rfl

theorem Seen.blank (L : Look σ) (M p e) : Seen L M p (FS.blank e) := by
  obtain ⟨n, d, ie⟩ := e
  cases d
  · exact .file ..
  · exact .unseen ..

theorem Seen.mono {L : Look σ} {M M' : Path → σ → Prop} {p f} (h : Seen L M p f) (hM : ∀ p x, M p x → M' p x) : Seen L M' p f := by
  induction h with
  | file p n ie re => exact .file ..
  | unseen p n ie => exact .unseen ..
  | dir p n ie kids x hx hl _ ih => exact .dir p n ie kids x (hM _ _ hx) hl ih

theorem Seen.distinct {L : Look σ} {M p f} (hL : L.Distinct) (h : Seen L M p f) : f.Distinct := by
  induction h with
  | file p n ie re => trivial
  | unseen p n ie => exact ⟨List.nodup_nil, trivial⟩
  | dir p n ie kids x hx hl _ ih =>
    refine ⟨?_, (FS.distinctL_iff kids).2 ih⟩
    have := hL x p
    rw [← hl, List.map_map] at this
    simpa [Function.comp_def, FS.entry_name] using this

/-- Trees with the same entries, no name twice, are the same if they are taken from the same lot. -/
theorem pick_eq {pool l l' : List Tree} (hp : (pool.map Tree.name).Nodup) (h : l.map Tree.entry = l'.map Tree.entry) (hl : ∀ t ∈ l, t ∈ pool)
    (hl' : ∀ t ∈ l', t ∈ pool) : l = l' := by
  induction l generalizing l' with
  | nil => cases l' with
    | nil => rfl
    | cons a l' => cases h
  | cons a l ih =>
    cases l' with
    | nil => cases h
    | cons b l' =>
      simp only [List.map_cons, List.cons.injEq] at h
      have hab : a = b := by
        have h1 := hl a (by simp)
        have h2 := hl' b (by simp)
        have hn : a.name = b.name := by unfold Tree.name; rw [h.1]
        clear ih h hl hl'
        induction pool with
        | nil => cases h1
        | cons c pool ih =>
          simp only [List.map_cons, List.nodup_cons] at hp
          rcases List.mem_cons.1 h1 with h3 | h3 <;> rcases List.mem_cons.1 h2 with h4 | h4
          · rw [h3, h4]
          · exact absurd (List.mem_map.2 ⟨b, h4, by rw [← h3, hn]⟩) hp.1
          · exact absurd (List.mem_map.2 ⟨a, h3, by rw [← h4, hn]⟩) hp.1
          · exact ih hp.2 h3 h4
      rw [hab, ih h.2 (fun t ht => hl t (by simp [ht])) (fun t ht => hl' t (by simp [ht]))]

/-- The file systems behind the picked entries, put back among all the listed ones. -/
theorem restore (es : List Entry) (fss : List FS) (hsub : ∀ f ∈ fss, f.entry ∈ es) (hn : (fss.map FS.name).Nodup) :
    ∃ raw : List FS, raw.map FS.entry = es ∧ (∀ f ∈ fss, f ∈ raw) ∧ ∀ f ∈ raw, f ∈ fss ∨ ∃ e, f = FS.blank e := by
  refine ⟨es.map fun e => (fss.find? fun f => decide (f.entry = e)).getD (FS.blank e), ?_, ?_, ?_⟩
  · rw [List.map_map]
    conv => rhs; rw [← List.map_id es]
    refine List.map_congr_left ?_
    intro e _
    simp only [Function.comp_apply, id]
    cases hf : fss.find? fun f => decide (f.entry = e) with
    | none => exact FS.blank_entry e
    | some f => simpa using List.find?_some hf
  · intro f hf
    refine List.mem_map.2 ⟨f.entry, hsub f hf, ?_⟩
    have : fss.find? (fun g => decide (g.entry = f.entry)) = some f := by
      clear hsub
      induction fss with
      | nil => cases hf
      | cons g fss ih =>
        simp only [List.map_cons, List.nodup_cons] at hn
        rw [List.find?_cons]
        rcases List.mem_cons.1 hf with rfl | hf
        · simp
        · have hne : g.entry ≠ f.entry := by
            intro h
            refine hn.1 (List.mem_map.2 ⟨f, hf, ?_⟩)
            rw [← FS.entry_name, ← FS.entry_name, h]
          simp only [hne, decide_false]
          exact ih hn.2 hf
    rw [this]
    rfl
  · intro f hf
    obtain ⟨e, -, rfl⟩ := List.mem_map.1 hf
    cases hq : fss.find? fun f => decide (f.entry = e) with
    | none => exact .inr ⟨e, rfl⟩
    | some f => exact .inl (List.mem_of_find?_eq_some hq)

theorem travel_still_frozen {c : Nav} {env : Env σ} {L : Look σ} {ps pp} {f : Entry → St σ → Journey σ}
    (hf : ∀ e s o s' g, f e s = some (o, s', g) → ∃ fs : FS, fs.entry = e ∧ traverse c env ps pp (prep c fs) s = (o, s') ∧
      Seen L (fun p x => ∃ q ∈ g, q.path = p ∧ q.after.ext = x) (pp ++ [e.name]) fs) (es : List Entry) :
    (∀ e ∈ es, ∀ y, L.info y (pp ++ [e.name]) = e.infoErr) → ∀ s o s' g, travelLive L pp f es s = some (o, s', g) →
      ∃ fss : List FS, fss.map FS.entry = es ∧ travelLoop c env ps pp (fss.map (prep c)) s = (o, s') ∧
        ∀ k ∈ fss, Seen L (fun p x => ∃ q ∈ g, q.path = p ∧ q.after.ext = x) (pp ++ [k.name]) k := by
  induction es with
  | nil =>
    intro _ s o s' g h
    cases h
    exact ⟨[], rfl, rfl, by simp⟩
  | cons e es ih =>
    intro hi s o s' g h
    obtain ⟨o1, s1, g1, h1, h2⟩ := travelLive_cons h
    rw [hi e (by simp) s.ext] at h1
    obtain ⟨t, ht, htr, hse⟩ := hf _ _ _ _ _ h1
    have hn : t.name = e.name := by rw [← FS.entry_name, ht]
    rcases h2 with ⟨ho, rfl, rfl⟩ | ⟨ho, g2, h2, rfl⟩
    · refine ⟨t :: es.map FS.blank, ?_, ?_, ?_⟩
      · simp only [List.map_cons, ht, List.map_map, List.cons.injEq, true_and]
        conv => rhs; rw [← List.map_id es]
        exact List.map_congr_left fun e _ => FS.blank_entry e
      · rw [List.map_cons, travelLoop_onward, htr]; simp only [ho]
      · intro k hk
        rcases List.mem_cons.1 hk with rfl | hk
        · rw [hn]; exact hse
        · obtain ⟨e', -, rfl⟩ := List.mem_map.1 hk
          exact Seen.blank ..
    · obtain ⟨fss, h3, h4, h5⟩ := ih (fun e he => hi e (by simp [he])) _ _ _ _ h2
      refine ⟨t :: fss, by simp only [List.map_cons, ht, h3], ?_, ?_⟩
      · rw [List.map_cons, travelLoop_onward, htr]; simp only [ho, h4]
      · intro k hk
        rcases List.mem_cons.1 hk with rfl | hk
        · rw [hn]
          refine hse.mono ?_
          rintro p x ⟨q, hq, h⟩
          exact ⟨q, List.mem_append_left _ hq, h⟩
        · refine (h5 k hk).mono ?_
          rintro p x ⟨q, hq, h⟩
          exact ⟨q, List.mem_append_right _ hq, h⟩

/-- What a traversal does on a changing file system it does on a still file system made of what was seen. -/
theorem traverse_fs_frozen {c : Nav} {env : Env σ} {L : Look σ} (hc : c.Sound) (hL : L.Distinct) (hst : L.Steady) (n : Nat) : ∀ ps pp e s o s' g,
    traverseLive c env L n ps pp e s = some (o, s', g) → ∃ fs : FS, fs.entry = e ∧ traverse c env ps pp (prep c fs) s = (o, s') ∧
      Seen L (fun p x => ∃ q ∈ g, q.path = p ∧ q.after.ext = x) (pp ++ [e.name]) fs := by
  induction n with
  | zero => intro ps pp e s o s' g h; cases h
  | succ n ih =>
    intro ps pp e s o s' g h
    rcases traverseLive_succ h with ⟨htd, rfl, rfl, rfl⟩ | ⟨htd, h⟩
    · refine ⟨FS.blank e, FS.blank_entry e, ?_, Seen.blank ..⟩
      rw [Tree.eta (prep c (FS.blank e)), traverse, if_pos htd]
    · simp only at h
      generalize hs1 : s.doDescend env (pp ++ [e.name]) e.isDir = s1 at h
      obtain ⟨name, d, ie⟩ := e
      simp only at h hs1 ⊢
      cases d with
      | false =>
        have hl : lay c L ⟨name, false, ie⟩ (pp ++ [name]) s1.ext = .node ⟨name, false, ie⟩ (L.list s1.ext (pp ++ [name])).2 [] [] [] := rfl
        rw [hl] at h
        refine ⟨.file name ie (L.list s1.ext (pp ++ [name])).2, rfl, ?_, .file ..⟩
        rw [prep, traverse]
        rcases h with ⟨s2, hE, rfl, rfl⟩ | ⟨s2, o3, s3, g3, hE, hT, rfl, rfl, rfl⟩
        · simp only [htd, Bool.false_eq_true, if_false, hs1, hE]
        · cases hT
          simp only [htd, Bool.false_eq_true, if_false, hs1, hE]
          rfl
      | true =>
        generalize hes : (L.list s1.ext (pp ++ [name])).1 = es at *
        generalize hre : (L.list s1.ext (pp ++ [name])).2 = re at *
        have hl : lay c L ⟨name, true, ie⟩ (pp ++ [name]) s1.ext = arrange c ⟨name, true, ie⟩ re (es.map Tree.stub) := by
          rw [← hes, ← hre]; rfl
        have hnd : (es.map Entry.name).Nodup := by rw [← hes]; exact hL _ _
        rw [hl] at h
        have hinfo : ∀ e ∈ es, ∀ y, L.info y (pp ++ [name] ++ [e.name]) = e.infoErr := by
          rw [← hes]; exact hst _ _
        obtain ⟨l, hl1, hl2⟩ := arrange_kids_select c hc.permutes hc.selects ⟨name, true, ie⟩ re (es.map Tree.stub)
        have hpick : ∀ e ∈ (arrange c ⟨name, true, ie⟩ re (es.map Tree.stub)).kids.map Tree.entry, e ∈ es := by
          intro e he
          obtain ⟨t, ht, rfl⟩ := List.mem_map.1 he
          obtain ⟨e', he', rfl⟩ := List.mem_map.1 (hl2.subset (hl1.mem_iff.2 ht))
          exact he'
        have hkn : ((arrange c ⟨name, true, ie⟩ re (es.map Tree.stub)).kids.map fun t => t.entry.name).Nodup := by
          refine (hl1.map _).nodup_iff.1 (List.Nodup.sublist (hl2.map _) ?_)
          rw [List.map_map]; exact hnd
        -- a still directory with given things behind the picked entries
        have key : ∀ fss : List FS, fss.map FS.entry = (arrange c ⟨name, true, ie⟩ re (es.map Tree.stub)).kids.map Tree.entry →
            ∃ raw : List FS, raw.map FS.entry = es ∧ (∀ f ∈ raw, f ∈ fss ∨ ∃ e, f = FS.blank e) ∧ prep c (.dir name ie re raw) =
              .node ⟨name, true, ie⟩ (arrange c ⟨name, true, ie⟩ re (es.map Tree.stub)).readErr (arrange c ⟨name, true, ie⟩ re (es.map Tree.stub)).files
                (arrange c ⟨name, true, ie⟩ re (es.map Tree.stub)).dirs (fss.map (prep c)) := by
          intro fss hfss
          obtain ⟨raw, h1, h2, h3⟩ := restore es fss (by
            intro f hf
            exact hpick _ (by rw [← hfss]; exact List.mem_map.2 ⟨f, hf, rfl⟩)) (by
            have : fss.map FS.name = (fss.map FS.entry).map Entry.name := by
              rw [List.map_map]; exact List.map_congr_left fun f _ => (FS.entry_name f).symm
            rw [this, hfss, List.map_map]
            exact hkn)
          refine ⟨raw, h1, h3, ?_⟩
          have hraw : (raw.map (prep c)).map (fun t => Tree.stub t.entry) = es.map Tree.stub := by
            rw [← h1, List.map_map, List.map_map]
            exact List.map_congr_left fun f _ => by simp only [Function.comp_apply, prep_FS_entry]
          have hnat := arrange_natural hc.sort hc.read ⟨name, true, ie⟩ re (raw.map (prep c))
          rw [hraw] at hnat
          have hkids : (arrange c ⟨name, true, ie⟩ re (raw.map (prep c))).kids = fss.map (prep c) := by
            refine pick_eq (pool := raw.map (prep c)) ?_ ?_ ?_ ?_
            · rw [List.map_map]
              have : raw.map (Tree.name ∘ prep c) = (raw.map FS.entry).map Entry.name := by
                rw [List.map_map]; exact List.map_congr_left fun f _ => by simp only [Function.comp_apply, Tree.name, prep_FS_entry]
              rw [this, h1]; exact hnd
            · have h4 := congrArg (fun t => t.kids.map Tree.entry) hnat
              simp only [Tree.kids_node, List.map_map] at h4
              rw [List.map_map]
              have h5 : fss.map (Tree.entry ∘ prep c) = fss.map FS.entry := List.map_congr_left fun f _ => prep_FS_entry c f
              rw [h5, hfss, h4]
              rfl
            · intro t ht
              obtain ⟨l, hl1, hl2⟩ := arrange_kids_select c hc.permutes hc.selects ⟨name, true, ie⟩ re (raw.map (prep c))
              exact hl2.subset (hl1.mem_iff.2 ht)
            · intro t ht
              obtain ⟨f, hf, rfl⟩ := List.mem_map.1 ht
              exact List.mem_map.2 ⟨f, h2 f hf, rfl⟩
          rw [prep_dir, hnat, Tree.readErr_node, Tree.files_node, Tree.dirs_node, ← hkids]
          conv => lhs; rw [Tree.eta (arrange c ⟨name, true, ie⟩ re (raw.map (prep c))), arrange_entry]
        generalize hA : arrange c ⟨name, true, ie⟩ re (es.map Tree.stub) = A at *
        have hAe : A.entry = ⟨name, true, ie⟩ := by rw [← hA, arrange_entry]
        obtain ⟨e', re', fs', ds', ks'⟩ := A
        simp only [Tree.entry_node] at hAe
        subst hAe
        simp only [Tree.readErr_node, Tree.files_node, Tree.dirs_node, Tree.kids_node] at key h
        have hnode : ∀ (ks : List Tree) d, mkNode c ps (pp ++ [name]) (.node ⟨name, true, ie⟩ re' fs' ds' ks) d =
            mkNode c ps (pp ++ [name]) (.node ⟨name, true, ie⟩ re' fs' ds' ks') d := fun _ _ => rfl
        have hread : ∀ ks : List Tree, readErrOf c (.node ⟨name, true, ie⟩ re' fs' ds' ks) = readErrOf c (.node ⟨name, true, ie⟩ re' fs' ds' ks') := fun _ => rfl
        rcases h with ⟨s2, hE, rfl, rfl⟩ | ⟨s2, o3, s3, g3, hE, hT, rfl, rfl, rfl⟩
        · obtain ⟨raw, h1, h2, h3⟩ := key ((ks'.map Tree.entry).map FS.blank) (by
            rw [List.map_map]
            conv => rhs; rw [← List.map_id (ks'.map Tree.entry)]
            exact List.map_congr_left fun e _ => FS.blank_entry e)
          refine ⟨.dir name ie re raw, rfl, ?_, ?_⟩
          · rw [h3, traverse]
            simp only [htd, Bool.false_eq_true, if_false, hs1, hnode, hread, hE]
          · rw [← hre]
            refine .dir _ _ _ _ _ ⟨_, List.mem_singleton.2 rfl, rfl, rfl⟩ (by rw [h1, hes]) ?_
            intro k hk
            rcases h2 k hk with hk | ⟨e, rfl⟩
            · obtain ⟨e, -, rfl⟩ := List.mem_map.1 hk
              exact Seen.blank ..
            · exact Seen.blank ..
        · obtain ⟨fss, h1, h2, h3⟩ := travel_still_frozen (fun e s o s' g => ih _ _ e s o s' g) _ (by
            intro e he
            exact hinfo e (hpick e he)) _ _ _ _ hT
          obtain ⟨raw, h4, h5, h6⟩ := key fss h1
          refine ⟨.dir name ie re raw, rfl, ?_, ?_⟩
          · rw [h6, traverse]
            simp only [htd, Bool.false_eq_true, if_false, hs1, hnode, hread, hE, h2]
          · rw [← hre]
            refine .dir _ _ _ _ _ ⟨_, List.mem_cons_self .., rfl, rfl⟩ (by rw [h4, hes]) ?_
            intro k hk
            rcases h5 k hk with hk | ⟨e, rfl⟩
            · refine (h3 k hk).mono ?_
              rintro p x ⟨q, hq, h⟩
              exact ⟨q, List.mem_cons_of_mem _ hq, h⟩
            · exact Seen.blank ..

end Traverse
