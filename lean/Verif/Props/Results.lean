import Mathlib.Data.List.TakeWhile
import Verif.Model.Results
import Verif.Lemmas.Dict

/-!
# C105 `RTresults` gives access to all stored results

Specification: a folder is a result if it has the sub-folders cfg, results and dumps (`IsResult`).  Every result in the parent folder is
available under its name; with `use_dumps=True` every fit is available by its ID, by its number and by iteration.
-/

namespace RT1.Results
variable {C : Type}

/-! ### specification -/

/-- A folder with the expected sub-folders. -/
def IsResult (entries : List (Name × Tree C)) : Prop :=
  (∃ l, (cfgN, Tree.dir l) ∈ entries) ∧ (∃ l, (resultsN, Tree.dir l) ∈ entries) ∧ ∃ l, (dumpsN, Tree.dir l) ∈ entries

/-- `n` is the name of a sub-folder that is a result. -/
def SubResult (entries : List (Name × Tree C)) (n : Name) (l : List (Name × Tree C)) : Prop :=
  (n, Tree.dir l) ∈ entries ∧ IsResult l

/-- The file of the fit with the given ID. -/
def FitFile (dumps : List (Name × Tree C)) (id : Name) (c : C) : Prop := (id ++ dumpN, Tree.file c) ∈ dumps

/-! ### lemmas -/

theorem mem_dirs (f : Name) (entries : List (Name × Tree C)) :
    f ∈ (entries.filter fun e => e.2.isDir).map Prod.fst ↔ ∃ l, (f, Tree.dir l) ∈ entries := by
  simp only [List.mem_map, List.mem_filter, Prod.exists, exists_and_right, exists_eq_right]
  constructor
  · rintro ⟨t, h1, h2⟩
    cases t with
    | file c => simp [Tree.isDir] at h2
    | dir l => exact ⟨l, h1⟩
  · rintro ⟨l, h⟩
    exact ⟨_, h, rfl⟩

theorem checkFolder_iff (entries : List (Name × Tree C)) : checkFolder entries = true ↔ IsResult (entries.take 100) := by
  simp only [checkFolder, List.all_cons, List.all_nil, Bool.and_true, Bool.and_eq_true, decide_eq_true_eq, mem_dirs, IsResult]

theorem checkFolder_small {entries : List (Name × Tree C)} (h : entries.length ≤ 100) :
    checkFolder entries = true ↔ IsResult entries := by
  rw [checkFolder_iff, List.take_of_length_le h]

theorem addSubfolders_none (k : Name) : ∀ (es : List (Name × Tree C)) (paths : Dict Name (List (Name × Tree C))),
    (∀ n l, (n, Tree.dir l) ∈ es → checkFolder l = true → stem n ≠ k) →
    Dict.get? (addSubfolders paths es) k = Dict.get? paths k
  | [], _, _ => rfl
  | (n, .file _) :: es, paths, h => by
    rw [addSubfolders]
    exact addSubfolders_none k es paths fun n l hm => h n l (List.mem_cons_of_mem _ hm)
  | (n, .dir l) :: es, paths, h => by
    rw [addSubfolders, addSubfolders_none k es _ fun n l hm => h n l (List.mem_cons_of_mem _ hm), addResult]
    split_ifs with hc
    · rw [Dict.get?_set, if_neg (h n l (by simp) hc).symm]
    · rfl

theorem addSubfolders_some (k : Name) (r : List (Name × Tree C)) :
    ∀ (es : List (Name × Tree C)) (paths : Dict Name (List (Name × Tree C))),
    (∃ n, (n, Tree.dir r) ∈ es ∧ checkFolder r = true ∧ stem n = k) →
    (∀ n l, (n, Tree.dir l) ∈ es → checkFolder l = true → stem n = k → l = r) →
    Dict.get? (addSubfolders paths es) k = some r
  | [], _, h, _ => by simp at h
  | (n, .file _) :: es, paths, h, hu => by
    rw [addSubfolders]
    refine addSubfolders_some k r es paths ?_ fun n l hm => hu n l (List.mem_cons_of_mem _ hm)
    obtain ⟨m, hm, h2⟩ := h
    exact ⟨m, by simpa using hm, h2⟩
  | (n, .dir l) :: es, paths, h, hu => by
    rw [addSubfolders]
    by_cases hex : ∃ m l', (m, Tree.dir l') ∈ es ∧ checkFolder l' = true ∧ stem m = k
    · obtain ⟨m, l', h1, h2, h3⟩ := hex
      have : l' = r := hu m l' (List.mem_cons_of_mem _ h1) h2 h3
      subst this
      exact addSubfolders_some k l' es _ ⟨m, h1, h2, h3⟩ fun n l hm => hu n l (List.mem_cons_of_mem _ hm)
    · push Not at hex
      rw [addSubfolders_none k es _ hex]
      obtain ⟨m, h1, h2, h3⟩ := h
      rcases List.mem_cons.1 h1 with h1 | h1
      · cases h1
        rw [addResult, if_pos h2, Dict.get?_set, if_pos h3.symm]
      · exact absurd h3 (hex m r h1 h2)

/-! ### the recognized results -/

/-- The stem of a name with one suffix is the name without the suffix. -/
theorem C105_stem (n s : Name) (hn : n ≠ []) (hs : s ≠ []) (hd : '.' ∉ s) : stem (n ++ '.' :: s) = n := by
  have hr : (n ++ '.' :: s).reverse = s.reverse ++ '.' :: n.reverse := by simp
  have h1 : (s.reverse ++ '.' :: n.reverse).takeWhile (· ≠ '.') = s.reverse := by
    rw [List.takeWhile_append_of_pos]
    · simp
    · intro c hc; simp only [List.mem_reverse] at hc; simp; rintro rfl; exact hd hc
  have h2 : (s.reverse ++ '.' :: n.reverse).dropWhile (· ≠ '.') = '.' :: n.reverse := by
    rw [List.dropWhile_append_of_pos]
    · simp
    · intro c hc; simp only [List.mem_reverse] at hc; simp; rintro rfl; exact hd hc
  rw [stem, hr, h1, h2]
  cases hb : n.reverse with
  | nil => simp at hb; exact absurd hb hn
  | cons b base =>
    simp only
    rw [if_neg (by simpa using hs), ← hb, List.reverse_reverse]

/-- A name without dots is its own stem. -/
theorem C105_stem_plain (n : Name) (hd : '.' ∉ n) : stem n = n := by
  have h2 : n.reverse.dropWhile (· ≠ '.') = [] := by
    rw [List.dropWhile_eq_nil_iff]
    intro c hc
    simp only [List.mem_reverse] at hc
    simp; rintro rfl; exact hd hc
  rw [stem, h2]

/-- If the parent folder is no result itself, exactly the sub-folders that are results are available, by the stem of their name.  (At most
100 entries in the folders, as documented, and different stems.) -/
theorem C105_found_partial (name : Name) (entries : List (Name × Tree C)) (hp : ¬ IsResult entries) (hl : entries.length ≤ 100)
    (hls : ∀ n l, (n, Tree.dir l) ∈ entries → l.length ≤ 100)
    (hu : ∀ n l n' l', SubResult entries n l → SubResult entries n' l' → stem n = stem n' → l = l') (key : Name)
    (r : List (Name × Tree C)) :
    getResult (scanResults name entries) key = .ok r ↔ ∃ n, SubResult entries n r ∧ stem n = key := by
  have hc : checkFolder entries = false := by
    rw [← Bool.not_eq_true, checkFolder_small hl]; exact hp
  have hscan : scanResults name entries = addSubfolders [] entries := by
    rw [scanResults, hc, List.take_of_length_le hl]; rfl
  rw [getResult, hscan]
  have hsub : ∀ n l, SubResult entries n l ↔ (n, Tree.dir l) ∈ entries ∧ checkFolder l = true := by
    intro n l
    constructor
    · rintro ⟨h1, h2⟩; exact ⟨h1, (checkFolder_small (hls n l h1)).2 h2⟩
    · rintro ⟨h1, h2⟩; exact ⟨h1, (checkFolder_small (hls n l h1)).1 h2⟩
  by_cases hex : ∃ n l, SubResult entries n l ∧ stem n = key
  · obtain ⟨n, l, h1, h2⟩ := hex
    rw [addSubfolders_some key l entries [] ⟨n, ((hsub n l).1 h1).1, ((hsub n l).1 h1).2, h2⟩
      (fun n' l' m1 m2 m3 => (hu n l n' l' h1 ((hsub n' l').2 ⟨m1, m2⟩) (by rw [h2, m3])).symm)]
    simp only [Except.ok.injEq]
    constructor
    · rintro rfl; exact ⟨n, h1, h2⟩
    · rintro ⟨n', h3, h4⟩; exact hu n l n' r h1 h3 (by rw [h2, h4])
  · push Not at hex
    rw [addSubfolders_none key entries [] fun n l m1 m2 => hex n l ((hsub n l).2 ⟨m1, m2⟩)]
    simp only [Dict.get?, List.find?_nil, Option.map_none]
    constructor
    · intro h; cases h
    · rintro ⟨n, h1, h2⟩; exact absurd h2 (hex n r h1)

/-- If the parent folder is a result itself, it is the only one. -/
theorem C105_parent (name : Name) (entries : List (Name × Tree C)) (hp : IsResult entries) (hl : entries.length ≤ 100) (key : Name)
    (r : List (Name × Tree C)) :
    getResult (scanResults name entries) key = .ok r ↔ key = stem name ∧ r = entries := by
  have hc := (checkFolder_small hl).2 hp
  rw [getResult, scanResults, if_pos hc, addResult, if_pos hc, Dict.get?_set]
  by_cases hk : key = stem name
  · rw [if_pos hk]
    simp only [Except.ok.injEq, hk, true_and]
    exact eq_comm
  · rw [if_neg hk]
    simp only [Dict.get?, List.find?_nil, Option.map_none]
    simp [hk]

/-! ### fits in dump-files -/

/-- `dump_files` are the files with the suffix `.dump` whose name does not contain "error", in the order of the folder. -/
theorem C105_files (dumps : List (Name × Tree C)) :
    (∀ n, n ∈ dumpFiles dumps ↔ (∃ c, (n, Tree.file c) ∈ dumps) ∧ dumpN <:+ n ∧ ¬ errorN <:+: n) ∧
      (dumpFiles dumps).Sublist (dumps.map Prod.fst) := by
  refine ⟨fun n => ?_, List.Sublist.map _ List.filter_sublist⟩
  simp only [dumpFiles, isDump, List.mem_map, List.mem_filter, Prod.exists, exists_and_right, exists_eq_right, Bool.and_eq_true,
    decide_eq_true_eq, Bool.not_eq_true', decide_eq_false_iff_not]
  constructor
  · rintro ⟨t, h1, ⟨h2, h3⟩, h4⟩
    cases t with
    | file c => exact ⟨⟨c, h1⟩, h2, h4⟩
    | dir l => simp [Tree.isDir] at h3
  · rintro ⟨⟨c, h1⟩, h2, h3⟩
    exact ⟨_, h1, ⟨h2, rfl⟩, h3⟩

theorem loadFile_mem {dumps : List (Name × Tree C)} (hn : (dumps.map Prod.fst).Nodup) {n : Name} {c : C}
    (h : (n, Tree.file c) ∈ dumps) : loadFile dumps n = .ok c := by
  rw [loadFile, (Dict.get?_iff_mem hn _ _).2 h]

theorem loadFile_ok {dumps : List (Name × Tree C)} {n : Name} {c : C} (h : loadFile dumps n = .ok c) : (n, Tree.file c) ∈ dumps := by
  unfold loadFile at h
  split at h
  · next c' hc => cases h; exact Dict.mem_of_get? hc
  · cases h

/-- A fit is loaded by its ID (if it does not end with `.dump`), by the name of its file, and by its path. -/
theorem C105_by_name_partial (dumps : List (Name × Tree C)) (hn : (dumps.map Prod.fst).Nodup) (db : Db C) (r : Res) (k : Nat)
    (id : Name) (c : C) (h : FitFile dumps id c) :
    (r.useDumps = true → ¬ dumpN <:+ id → loadFit dumps db r k false (.str id) = (.ok (some (c, none)), r)) ∧
    (r.useDumps = true → loadFit dumps db r k false (.str (id ++ dumpN)) = (.ok (some (c, none)), r)) ∧
    loadFit dumps db r k false (.path (id ++ dumpN)) = (.ok (some (c, none)), r) := by
  have hl := loadFile_mem hn h
  have hd : loadDump dumps false (some (id ++ dumpN)) = .ok (some (c, none)) := by
    rw [loadDump, hl]; rfl
  refine ⟨fun hu he => ?_, fun hu => ?_, ?_⟩
  · rw [loadFit, if_pos hu]
    simp only [dumpFile, dumpName, if_neg he, Except.bind, hd]
  · rw [loadFit, if_pos hu]
    simp only [dumpFile, dumpName, if_pos (List.suffix_append id dumpN), Except.bind, hd]
  · cases hu : r.useDumps with
    | false => simp only [loadFit, hu, Bool.false_eq_true, if_false, loadNoDump, hd]
    | true => simp only [loadFit, hu, if_true, dumpFile, Except.bind, hd]

/-- An ID without dump-file raises an exception. -/
theorem C105_unknown (dumps : List (Name × Tree C)) (db : Db C) (r : Res) (k : Nat) (b : Bool) (id : Name) (hu : r.useDumps = true)
    (he : ¬ dumpN <:+ id) (h : ∀ c, ¬ FitFile dumps id c) : (loadFit dumps db r k b (.str id)).1 = .error .osError := by
  have hl : loadFile dumps (id ++ dumpN) = .error .osError := by
    cases hf : loadFile dumps (id ++ dumpN) with
    | ok c => exact absurd (loadFile_ok hf) (h c)
    | error e =>
      unfold loadFile at hf
      split at hf <;> cases hf
      rfl
  rw [loadFit, if_pos hu]
  simp only [dumpFile, dumpName, if_neg he, Except.bind, loadDump, hl, bind]

theorem mapM_loadFile {dumps : List (Name × Tree C)} : ∀ {l : List Name} {f : Name → C},
    (∀ n ∈ l, loadFile dumps n = .ok (f n)) → l.mapM (loadFile dumps) = .ok (l.map f)
  | [], _, _ => rfl
  | n :: l, f, h => by
    rw [List.mapM_cons, h n (by simp), mapM_loadFile fun m hm => h m (by simp [hm])]; rfl

/-- Iteration and numbers: `dump_fits` are the fits of `dump_files`, and the fit with number `i` is the `i`-th of them (None if there are
less). -/
theorem C105_by_number (dumps : List (Name × Tree C)) (hn : (dumps.map Prod.fst).Nodup) (db : Db C) (r : Res) (k : Nat)
    (hu : r.useDumps = true) :
    ∃ fits : List C, dumpFits dumps = .ok fits ∧ fits.length = (dumpFiles dumps).length ∧
      (∀ (i : Nat) (n : Name) (c : C), (dumpFiles dumps)[i]? = some n → (fits[i]? = some c ↔ (n, Tree.file c) ∈ dumps)) ∧
      ∀ i : Nat, loadFit dumps db r k false (.int i) = (.ok (fits[i]?.map fun c => (c, none)), r) := by
  have hload : ∀ n ∈ dumpFiles dumps, ∃ c, loadFile dumps n = .ok c := by
    intro n h
    obtain ⟨⟨c, hc⟩, -⟩ := ((C105_files dumps).1 n).1 h
    exact ⟨c, loadFile_mem hn hc⟩
  by_cases hemp : dumpFiles dumps = []
  · refine ⟨[], ?_, ?_, ?_, ?_⟩
    · rw [dumpFits, hemp]; rfl
    · rw [hemp]; rfl
    · intro i n c h; rw [hemp] at h; simp at h
    · intro i
      rw [loadFit, if_pos hu]
      have : ¬ ((i : Int) < 0) := by omega
      simp only [dumpFile, if_neg this, hemp]
      simp [Except.bind, loadDump]
  obtain ⟨n0, l0, hcons⟩ := List.exists_cons_of_ne_nil hemp
  obtain ⟨c0, -⟩ := hload n0 (by rw [hcons]; simp)
  let f : Name → C := fun n => match loadFile dumps n with
    | .ok c => c
    | .error _ => c0
  have hf : ∀ n ∈ dumpFiles dumps, loadFile dumps n = .ok (f n) := by
    intro n h
    obtain ⟨c, hc⟩ := hload n h
    simp only [f, hc]
  refine ⟨(dumpFiles dumps).map f, mapM_loadFile hf, by simp, ?_, ?_⟩
  · intro i n c hi
    have hmem : n ∈ dumpFiles dumps := List.mem_of_getElem? hi
    rw [List.getElem?_map, hi]
    simp only [Option.map_some, Option.some.injEq]
    constructor
    · rintro rfl; exact loadFile_ok (hf n hmem)
    · intro h
      have h1 := loadFile_mem hn h
      rw [hf n hmem] at h1
      cases h1
      rfl
  · intro i
    rw [loadFit, if_pos hu]
    have : ¬ ((i : Int) < 0) := by omega
    simp only [dumpFile, if_neg this, Int.toNat_natCast, Except.bind, List.getElem?_map]
    cases hi : (dumpFiles dumps)[i]? with
    | none => rfl
    | some n =>
      rw [Option.map_some, Option.map_some]
      simp only [loadDump, hf n (List.mem_of_getElem? hi)]
      rfl

/-- The returned ID identifies the fit (if it does not end with `.dump`): loading it again gives the same fit.  This holds for every way to
select the fit, also for random ones. -/
theorem C105_return_ID_partial (dumps : List (Name × Tree C)) (db : Db C) (r r' : Res) (k k' : Nat) (a : Arg) (c : C)
    (id : Name) (hu : r.useDumps = true) (ha : ∀ n, a = .path n → ∃ m, n = m ++ dumpN)
    (hl : ∀ l, r.fileList = some l → ∀ n ∈ l, dumpN <:+ n)
    (h : loadFit dumps db r k true a = (.ok (some (c, some id)), r')) (he : ¬ dumpN <:+ id) (hid : id ≠ dumpN) :
    loadFit dumps db r' k' false (.str id) = (.ok (some (c, none)), r') := by
  rw [loadFit, if_pos hu] at h
  simp only [Prod.mk.injEq] at h
  obtain ⟨h1, h2⟩ := h
  have hu' : r'.useDumps = true := by
    rw [← h2]
    cases a <;> simp [dumpFile, hu]
  cases hf : (dumpFile dumps r k a).1 with
  | error e => rw [hf] at h1; cases h1
  | ok o =>
    rw [hf] at h1
    cases o with
    | none => cases h1
    | some n =>
      simp only [Except.bind, loadDump] at h1
      cases hlf : loadFile dumps n with
      | error e => rw [hlf] at h1; cases h1
      | ok c' =>
        rw [hlf] at h1
        simp only [bind, Except.bind, pure, Except.pure, if_true, Except.ok.injEq, Option.some.injEq, Prod.mk.injEq] at h1
        obtain ⟨rfl, rfl⟩ := h1
        -- the name of the file ends with `.dump`
        have hsuf : dumpN <:+ n := by
          cases a with
          | none =>
            simp only [dumpFile] at hf
            split at hf
            swap
            · cases hf
            next n' hn' =>
            cases hf
            have hmem := List.mem_of_getElem? hn'
            cases hfl : r.fileList with
            | none =>
              rw [hfl] at hmem
              exact ((((C105_files dumps).1 n).1 hmem).2).1
            | some l =>
              rw [hfl] at hmem
              exact hl l hfl n hmem
          | int i =>
            simp only [dumpFile] at hf
            split_ifs at hf
            cases hf' : (dumpFiles dumps)[i.toNat]? with
            | none => rw [hf'] at hf; cases hf
            | some n' =>
              rw [hf'] at hf
              cases hf
              exact ((((C105_files dumps).1 n).1 (List.mem_of_getElem? hf')).2).1
          | str s =>
            simp only [dumpFile, Except.ok.injEq, Option.some.injEq] at hf
            rw [← hf, dumpName]
            split_ifs with h
            · exact h
            · exact List.suffix_append _ _
          | path m =>
            simp only [dumpFile, Except.ok.injEq, Option.some.injEq] at hf
            obtain ⟨m', hm'⟩ := ha m rfl
            rw [← hf, hm']
            exact List.suffix_append _ _
          | other => cases hf
        obtain ⟨m, rfl⟩ := hsuf
        have hst : stem (m ++ dumpN) = m ∨ m = [] := by
          by_cases hm : m = []
          · exact .inr hm
          · exact .inl (C105_stem m ['d', 'u', 'm', 'p'] hm (by simp) (by decide))
        rcases hst with hst | rfl
        · rw [hst] at he ⊢
          rw [loadFit, if_pos hu']
          simp only [dumpFile, dumpName, if_neg he, Except.bind, loadDump, hlf, bind, pure, Except.pure]
          rfl
        · exact absurd (by decide : stem ([] ++ dumpN) = dumpN) hid

/-- After `scan_folder` (or at the first call) a random fit is one of `dump_fits`, and each of them is possible. -/
theorem C105_random (dumps : List (Name × Tree C)) (hn : (dumps.map Prod.fst).Nodup) (db : Db C) (r : Res) (hu : r.useDumps = true)
    (hl : r.fileList = none ∨ r = scanFolder dumps r) (c : C) :
    (∃ k, (loadFit dumps db r k false .none).1 = .ok (some (c, none))) ↔ ∃ n ∈ dumpFiles dumps, (n, Tree.file c) ∈ dumps := by
  have hlist : r.fileList.getD (dumpFiles dumps) = dumpFiles dumps := by
    rcases hl with h | h
    · rw [h]; rfl
    · rw [h]; rfl
  constructor
  · rintro ⟨k, h⟩
    rw [loadFit, if_pos hu] at h
    simp only [dumpFile, hlist] at h
    cases hk : (dumpFiles dumps)[k % (dumpFiles dumps).length]? with
    | none => rw [hk] at h; cases h
    | some n =>
      rw [hk] at h
      simp only [Except.bind, loadDump] at h
      cases hf : loadFile dumps n with
      | error e => rw [hf] at h; cases h
      | ok c' =>
        rw [hf] at h
        simp only [bind, Except.bind, pure, Except.pure, Except.ok.injEq, Option.some.injEq, Prod.mk.injEq] at h
        rw [← h.1]
        exact ⟨n, List.mem_of_getElem? hk, loadFile_ok hf⟩
  · rintro ⟨n, h1, h2⟩
    obtain ⟨k, hk, hkn⟩ := List.mem_iff_getElem.1 h1
    refine ⟨k, ?_⟩
    rw [loadFit, if_pos hu]
    have : (dumpFiles dumps)[k % (dumpFiles dumps).length]? = some n := by
      rw [Nat.mod_eq_of_lt hk, List.getElem?_eq_getElem hk, hkn]
    simp only [dumpFile, hlist, this, Except.bind, loadDump, loadFile_mem hn h2]
    rfl

/-- Negative numbers and arguments of other types raise an exception. -/
theorem C105_invalid (dumps : List (Name × Tree C)) (db : Db C) (r : Res) (k : Nat) (b : Bool) :
    (∀ i < 0, r.useDumps = true → loadFit dumps db r k b (.int i) = (.error .valueError, r)) ∧
      ∃ e, loadFit dumps db r k b .other = (.error e, r) := by
  refine ⟨fun i hi hu => ?_, ?_⟩
  · simp only [loadFit, if_pos hu, dumpFile, if_pos hi]
    rfl
  · cases hu : r.useDumps with
    | false => exact ⟨.assertionError, by simp only [loadFit, hu]; rfl⟩
    | true => exact ⟨.unboundLocalError, by simp only [loadFit, hu]; rfl⟩

/-- Without `use_dumps` the fit is loaded from the database. -/
theorem C105_database (dumps : List (Name × Tree C)) (db : Db C) (r : Res) (k : Nat) (a : Arg) (hu : r.useDumps = false)
    (ha : a = .none ∨ (∃ i, a = .int i) ∨ ∃ s, a = .str s) :
    loadFit dumps db r k false a = ((db a).map fun c => some (c, none), r) := by
  rw [loadFit, hu]
  rcases ha with rfl | ⟨i, rfl⟩ | ⟨s, rfl⟩ <;>
  · simp only [Bool.false_eq_true, if_false, loadNoDump, loadDb]
    cases db _ <;> rfl

/-- `load_cfg` reads the only config-file, or the one with the given name. -/
theorem C105_load_cfg (cfg : List (Name × Tree C)) :
    (∀ n t, (n, t) ∈ cfg → iniN <:+ n → loadCfg cfg (some n) = .ok n) ∧
    (∀ n, loadCfg cfg none = .ok n ↔ (cfg.filter fun e => decide (iniN <:+ e.1)).map Prod.fst = [n]) ∧
    ((∀ e ∈ cfg, ¬ iniN <:+ e.1) → ∀ o, loadCfg cfg o = .error .assertionError) := by
  refine ⟨fun n t h hs => ?_, fun n => ?_, fun h o => ?_⟩
  · have : n ∈ (cfg.filter fun e => decide (iniN <:+ e.1)).map Prod.fst :=
      List.mem_map.2 ⟨_, List.mem_filter.2 ⟨h, by simpa using hs⟩, rfl⟩
    unfold loadCfg
    generalize (cfg.filter fun e => decide (iniN <:+ e.1)).map Prod.fst = l at this
    match l, this with
    | [_], _ => rfl
    | _ :: _ :: _, _ => rfl
  · unfold loadCfg
    generalize (cfg.filter fun e => decide (iniN <:+ e.1)).map Prod.fst = l
    match l with
    | [] => simp
    | [m] => simp
    | _ :: _ :: _ => simp
  · have : (cfg.filter fun e => decide (iniN <:+ e.1)).map Prod.fst = [] := by
      simp only [List.map_eq_nil_iff, List.filter_eq_nil_iff, decide_eq_true_eq]
      exact h
    unfold loadCfg
    rw [this]

/-! ### files in the results-folder -/

/-- The file of a result. -/
def ResultFile (s : Name) (results : List (Name × Tree C)) (name : Name) (c : C) : Prop :=
  (name ++ '.' :: s, Tree.file c) ∈ results

theorem get?_getResults {results : List (Name × Tree C)} {s : Name} (hs : s ≠ []) (hd : '.' ∉ s)
    (hn : (results.map Prod.fst).Nodup) (hne : ∀ c, ¬ ResultFile s results [] c) (name : Name) (c : C) :
    Dict.get? (getResults ('.' :: s) results) name = some c ↔ ResultFile s results name c := by
  have hmem : ∀ (m : Name) (c : C), (m, c) ∈ results.filterMap (resultEntry ('.' :: s)) ↔ ResultFile s results m c := by
    intro m c
    simp only [List.mem_filterMap, Prod.exists]
    constructor
    · rintro ⟨n, t, h1, h2⟩
      cases t with
      | dir l => simp [resultEntry] at h2
      | file c' =>
        simp only [resultEntry] at h2
        split_ifs at h2 with hsuf
        simp only [Option.some.injEq, Prod.mk.injEq] at h2
        obtain ⟨h2, rfl⟩ := h2
        obtain ⟨m', rfl⟩ := hsuf
        have hm' : m' ≠ [] := by rintro rfl; exact hne c' h1
        rw [C105_stem m' s hm' hs hd] at h2
        subst h2
        exact h1
    · intro h
      have hm : m ≠ [] := by rintro rfl; exact hne c h
      exact ⟨_, _, h, by simp only [resultEntry, if_pos (List.suffix_append m ('.' :: s)), C105_stem m s hm hs hd]⟩
  rw [getResults, Dict.get?_ofList_functional, hmem]
  intro k v v' h1 h2
  rw [hmem] at h1 h2
  have e1 := (Dict.get?_iff_mem hn _ _).2 h1
  have e2 := (Dict.get?_iff_mem hn _ _).2 h2
  rw [e1] at e2
  cases e2
  rfl

theorem nodup_getResults (ending : Name) (results : List (Name × Tree C)) : (Dict.keys (getResults ending results)).Nodup :=
  Dict.nodup_update (by simp [Dict.keys]) _

/-- A file `NAME.h5` (or `.nc`, …) is loaded by its name; without name if it is the only one.  Unknown names and missing names raise an
exception. -/
theorem C105_load_result (s : Name) (results : List (Name × Tree C)) (hs : s ≠ []) (hd : '.' ∉ s) (hn : (results.map Prod.fst).Nodup)
    (hne : ∀ c, ¬ ResultFile s results [] c) :
    (∀ name c, ResultFile s results name c → loadResult ('.' :: s) results (some name) = .ok c) ∧
    (∀ name, (∀ c, ¬ ResultFile s results name c) → ∃ e, loadResult ('.' :: s) results (some name) = .error e) ∧
    (∀ name c, ResultFile s results name c → (∀ n' c', ResultFile s results n' c' → n' = name) →
      loadResult ('.' :: s) results none = .ok c) ∧
    (∀ n n' c c', ResultFile s results n c → ResultFile s results n' c' → n ≠ n' →
      loadResult ('.' :: s) results none = .error .assertionError) ∧
    ((∀ n c, ¬ ResultFile s results n c) → ∀ o, loadResult ('.' :: s) results o = .error .assertionError) := by
  have key := get?_getResults hs hd hn hne
  have hnd := nodup_getResults ('.' :: s) results
  refine ⟨fun name c h => ?_, fun name h => ?_, fun name c h hu => ?_, fun n n' c c' h h' hnn => ?_, fun h o => ?_⟩
  · have hg := (key name c).2 h
    unfold loadResult
    dsimp only
    generalize getResults ('.' :: s) results = d at hg
    match d, hg with
    | [e], hg => simp only [Dict.getItem, hg]
    | _ :: _ :: _, hg => simp only [hg]
  · have hg : Dict.get? (getResults ('.' :: s) results) name = none := by
      cases hg : Dict.get? (getResults ('.' :: s) results) name with
      | none => rfl
      | some c => exact absurd ((key name c).1 hg) (h c)
    unfold loadResult
    dsimp only
    generalize getResults ('.' :: s) results = d at hg
    match d, hg with
    | [], _ => exact ⟨_, rfl⟩
    | [e], hg => exact ⟨.keyError, by simp only [Dict.getItem, hg]⟩
    | _ :: _ :: _, hg => exact ⟨.assertionError, by simp only [hg]⟩
  · have hg := (key name c).2 h
    unfold loadResult
    dsimp only
    have hall : ∀ e ∈ getResults ('.' :: s) results, e.1 = name := by
      intro e he
      exact hu e.1 e.2 ((key _ _).1 ((Dict.get?_iff_mem hnd _ _).2 he))
    generalize getResults ('.' :: s) results = d at hg hall hnd
    match d, hg, hall, hnd with
    | [e], hg, _, _ =>
      rw [Dict.get?_cons] at hg
      split_ifs at hg
      · simp only [Option.some.injEq] at hg
        subst hg
        rfl
      · cases hg
    | e :: e' :: d, _, hall, hnd =>
      have h1 := hall e (by simp)
      have h2 := hall e' (by simp)
      simp [Dict.keys, h1, h2] at hnd
  · have hg := (key n c).2 h
    have hg' := (key n' c').2 h'
    unfold loadResult
    dsimp only
    generalize getResults ('.' :: s) results = d at hg hg'
    match d, hg, hg' with
    | [e], hg, hg' =>
      rw [Dict.get?_cons] at hg hg'
      split_ifs at hg hg' with h1 h2
      · exact absurd (h1.symm.trans h2) hnn
      all_goals simp [Dict.get?] at hg hg'
    | _ :: _ :: _, _, _ => rfl
  · have : getResults ('.' :: s) results = [] := by
      cases hd' : getResults ('.' :: s) results with
      | nil => rfl
      | cons e d =>
        refine absurd ((key e.1 e.2).1 ?_) (h e.1 e.2)
        rw [hd', Dict.get?_cons, if_pos rfl]
    unfold loadResult
    rw [this]

/-! ### examples of the hypotheses -/

/-- A parent folder with two results and a file. -/
def exDumps : List (Name × Tree Nat) :=
  [(['a', '.', 'd', 'u', 'm', 'p'], .file 1), (['a', '_', 'e', 'r', 'r', 'o', 'r', '.', 'd', 'u', 'm', 'p'], .file 2),
    (['b', '.', 'd', 'u', 'm', 'p'], .file 3)]

def exResult : List (Name × Tree Nat) := [(cfgN, .dir []), (dumpsN, .dir exDumps), (resultsN, .dir [])]

def exOther : List (Name × Tree Nat) := [(resultsN, .dir []), (cfgN, .dir []), (dumpsN, .dir [])]

def exParent : List (Name × Tree Nat) := [(['r', '1'], .dir exResult), (['f'], .file 0), (['r', '2'], .dir exOther)]

theorem exResult_isResult : IsResult exResult := ⟨⟨[], by simp [exResult]⟩, ⟨[], by simp [exResult]⟩, ⟨exDumps, by simp [exResult]⟩⟩

theorem exOther_isResult : IsResult exOther := ⟨⟨[], by simp [exOther]⟩, ⟨[], by simp [exOther]⟩, ⟨[], by simp [exOther]⟩⟩

example : getResult (scanResults ['p'] exParent) ['r', '1'] = .ok exResult := by
  refine (C105_found_partial ['p'] exParent ?_ (by decide) ?_ ?_ _ _).2 ⟨['r', '1'], ⟨by simp [exParent], exResult_isResult⟩, by decide⟩
  · rintro ⟨⟨l, h⟩, -⟩
    simp [exParent, cfgN] at h
  · intro n l h
    simp only [exParent, List.mem_cons, Prod.mk.injEq, Tree.dir.injEq, reduceCtorEq, and_false, List.not_mem_nil, or_false, false_or] at h
    rcases h with ⟨-, rfl⟩ | ⟨-, rfl⟩ <;> decide
  · rintro n l n' l' ⟨h, -⟩ ⟨h', -⟩ hst
    simp only [exParent, List.mem_cons, Prod.mk.injEq, Tree.dir.injEq, reduceCtorEq, and_false, List.not_mem_nil, or_false,
      false_or] at h h'
    rcases h with ⟨rfl, rfl⟩ | ⟨rfl, rfl⟩ <;> rcases h' with ⟨rfl, rfl⟩ | ⟨rfl, rfl⟩
    · rfl
    · exact absurd hst (by decide)
    · exact absurd hst (by decide)
    · rfl

example : dumpFiles exDumps = [['a', '.', 'd', 'u', 'm', 'p'], ['b', '.', 'd', 'u', 'm', 'p']] := by decide

example (db : Db Nat) (r : Res) (hu : r.useDumps = true) :
    loadFit exDumps db r 0 false (.str ['a', '_', 'e', 'r', 'r', 'o', 'r']) = (.ok (some (2, none)), r) :=
  (C105_by_name_partial exDumps (by decide) db r 0 ['a', '_', 'e', 'r', 'r', 'o', 'r'] 2 (by simp [FitFile, exDumps, dumpN])).1 hu (by decide)

/-! ### deviations from the property -/

/-- Two results whose names differ only after the last dot: only the last one is available. -/
theorem C105_stem_fails : ∃ (entries : List (Name × Tree Nat)) (n n' : Name) (l l' : List (Name × Tree Nat)),
    SubResult entries n l ∧ SubResult entries n' l' ∧ n ≠ n' ∧ Dict.keys (scanResults ['p'] entries) = [['v', '1']] ∧
      ∃ e, getResult (scanResults ['p'] entries) n = .error e := by
  refine ⟨[(['v', '1', '.', '2'], .dir exResult), (['v', '1', '.', '3'], .dir exOther)], ['v', '1', '.', '2'], ['v', '1', '.', '3'],
    exResult, exOther, ⟨by simp, exResult_isResult⟩, ⟨by simp, exOther_isResult⟩, by decide, by decide, .assertionError, rfl⟩

/-- A parent folder that is a result hides the results in its sub-folders. -/
theorem C105_nested_fails : ∃ (entries : List (Name × Tree Nat)) (n : Name) (l : List (Name × Tree Nat)),
    SubResult entries n l ∧ ∀ key r, getResult (scanResults ['p'] entries) key = .ok r → r ≠ l := by
  refine ⟨(['r', '1'], .dir exResult) :: exOther, ['r', '1'], exResult, ⟨by simp, exResult_isResult⟩, ?_⟩
  intro key r h
  have hp : IsResult ((['r', '1'], Tree.dir exResult) :: exOther) :=
    ⟨⟨[], by simp [exOther]⟩, ⟨[], by simp [exOther]⟩, ⟨[], by simp [exOther]⟩⟩
  rw [C105_parent _ _ hp (by decide)] at h
  rw [h.2]
  intro he
  have := congrArg List.length he
  simp [exResult, exOther] at this

/-- An ID that ends with `.dump` gives another fit (or none). -/
theorem C105_suffix_fails : ∃ (dumps : List (Name × Tree Nat)) (id : Name) (c c' : Nat), (dumps.map Prod.fst).Nodup ∧
    FitFile dumps id c ∧ c ≠ c' ∧ ∀ db k, loadFit dumps db ⟨true, none⟩ k false (.str id) = (.ok (some (c', none)), ⟨true, none⟩) := by
  refine ⟨[(['a', '.', 'd', 'u', 'm', 'p'], .file 1), (['a', '.', 'd', 'u', 'm', 'p', '.', 'd', 'u', 'm', 'p'], .file 2)],
    ['a', '.', 'd', 'u', 'm', 'p'], 2, 1, by decide, by simp [FitFile, dumpN], by decide, fun db k => ?_⟩
  have hx : dumpN <:+ ['a', '.', 'd', 'u', 'm', 'p'] := ⟨['a'], rfl⟩
  simp only [loadFit, if_true, dumpFile, dumpName, if_pos hx]
  rfl

/-- With the database the ID of a fit cannot be requested. -/
theorem C105_return_fails (dumps : List (Name × Tree C)) (db : Db C) (r : Res) (k : Nat) (a : Arg) (hu : r.useDumps = false)
    (ha : ∀ n, a ≠ .path n) : ∃ e, loadFit dumps db r k true a = (.error e, r) := by
  rw [loadFit, hu]
  simp only [Bool.false_eq_true, if_false]
  cases a with
  | path n => exact absurd rfl (ha n)
  | other => exact ⟨_, rfl⟩
  | none | int i | str s =>
    simp only [loadNoDump, loadDb, bind, Except.bind]
    split
    · exact ⟨_, rfl⟩
    · exact ⟨_, rfl⟩

/-- A random fit is only selected from the files of the first call (or of the last `scan_folder`): if the file has been removed, an exception
is raised although there are fits. -/
theorem C105_stale_fails : ∃ (before after : List (Name × Tree Nat)) (r : Res), (∀ db, (loadFit before db ⟨true, none⟩ 0 false .none).2 = r) ∧
    dumpFiles after ≠ [] ∧ (∀ db k, loadFit after db r k false .none = (.error .osError, r)) ∧
      ∀ db, loadFit after db (scanFolder after r) 0 false .none = (.ok (some (3, none)), scanFolder after r) := by
  refine ⟨[(['a', '.', 'd', 'u', 'm', 'p'], .file 1)], [(['b', '.', 'd', 'u', 'm', 'p'], .file 3)], ⟨true, some [['a', '.', 'd', 'u', 'm', 'p']]⟩,
    fun db => ?_, by decide, fun db k => ?_, fun db => ?_⟩
  · have : dumpFiles [(['a', '.', 'd', 'u', 'm', 'p'], (Tree.file 1 : Tree Nat))] = [['a', '.', 'd', 'u', 'm', 'p']] := by decide
    simp only [loadFit, if_true, dumpFile, Option.getD, this]
  · simp only [loadFit, if_true, dumpFile, Option.getD, List.length_singleton, Nat.mod_one]
    rfl
  · have : dumpFiles [(['b', '.', 'd', 'u', 'm', 'p'], (Tree.file 3 : Tree Nat))] = [['b', '.', 'd', 'u', 'm', 'p']] := by decide
    simp only [loadFit, scanFolder, if_true, dumpFile, Option.getD, this]
    rfl

end RT1.Results
