import Verif.Spec.Files

/-!
# C63: `delete_files_with_extension`
-/

namespace Optics

theorem endsWith_iff (name ext : List Char) : endsWith name ext = true ↔ ext <:+ name := by
  unfold endsWith
  exact List.isSuffixOf_iff_suffix

/-- The entries that stay, one by one. -/
theorem mem_deleteWalk (ext : List Char) (es : List (List Char × Node)) (name : List Char) (n : Node) :
    (name, n) ∈ deleteWalk ext es ↔ ∃ m, (name, m) ∈ es ∧ deleteWalkNode ext name m = some n := by
  induction es with
  | nil => simp [deleteWalk]
  | cons e es ih =>
    obtain ⟨name', m'⟩ := e
    unfold deleteWalk
    cases h : deleteWalkNode ext name' m' with
    | none =>
      simp only [ih, List.mem_cons, Prod.mk.injEq]
      constructor
      · rintro ⟨m, h1, h2⟩; exact ⟨m, .inr h1, h2⟩
      · rintro ⟨m, ⟨rfl, rfl⟩ | h1, h2⟩
        · rw [h] at h2; cases h2
        · exact ⟨m, h1, h2⟩
    | some k =>
      simp only [ih, List.mem_cons, Prod.mk.injEq]
      constructor
      · rintro (⟨rfl, rfl⟩ | ⟨m, h1, h2⟩)
        · exact ⟨m', .inl ⟨rfl, rfl⟩, h⟩
        · exact ⟨m, .inr h1, h2⟩
      · rintro ⟨m, ⟨rfl, rfl⟩ | h1, h2⟩
        · rw [h] at h2; exact .inl ⟨rfl, (Option.some.inj h2).symm⟩
        · exact .inr ⟨m, h1, h2⟩

open Classical in
theorem deleteWalkNode_leaf (ext name : List Char) (m : Node) (hm : ∀ sub, m ≠ .dir sub) :
    deleteWalkNode ext name m = if m.kind.isFile ∧ ext <:+ name then none else some m := by
  cases m with
  | file => simp [deleteWalkNode, Node.kind, Kind.isFile, endsWith_iff]
  | link b => cases b <;> simp [deleteWalkNode, Node.kind, Kind.isFile, endsWith_iff]
  | dir sub => exact absurd rfl (hm sub)

/-- C63, `deleteInSubDirectories=True`: afterwards a path leads to something exactly if it did before and was not a file
whose name ends with the extension; everything else, directories included, is untouched. No exception. -/
theorem C63_walk (es : List (List Char × Node)) (ext : List Char) : ∃ es',
    deleteFilesWithExtension (some es) ext true = (some es', none) ∧
    ∀ path k, Contains es' path k ↔ Contains es path k ∧ ¬ (k.isFile ∧ LastEndsWith ext path) := by
  refine ⟨deleteWalk ext es, rfl, fun path k => ?_⟩
  constructor
  · intro h
    generalize hes : deleteWalk ext es = es' at h
    induction h generalizing es with
    | @here _ name node hmem =>
      subst hes
      obtain ⟨m, hm, hn⟩ := (mem_deleteWalk ext es name node).mp hmem
      cases m with
      | dir sub =>
        injection (show some (Node.dir (deleteWalk ext sub)) = some node from hn) with hn
        subst hn
        exact ⟨Contains.here (node := .dir sub) hm, fun h => h.1⟩
      | file | link b =>
        rw [deleteWalkNode_leaf _ _ _ (by simp)] at hn
        split_ifs at hn with hc
        injection hn with hn
        subst hn
        refine ⟨Contains.here hm, ?_⟩
        rintro ⟨h1, n, h2, h3⟩
        simp only [List.getLast?_singleton, Option.some.injEq] at h2
        subst h2
        exact hc ⟨h1, h3⟩
    | @inside _ name sub path k hmem hsub ih =>
      subst hes
      obtain ⟨m, hm, hn⟩ := (mem_deleteWalk ext es name _).mp hmem
      have : ∃ sub0, m = .dir sub0 ∧ deleteWalk ext sub0 = sub := by
        cases m with
        | dir sub0 =>
          injection (show some (Node.dir (deleteWalk ext sub0)) = some (Node.dir sub) from hn) with hn
          injection hn with hn
          exact ⟨sub0, rfl, hn⟩
        | file | link b =>
          rw [deleteWalkNode_leaf _ _ _ (by simp)] at hn
          split_ifs at hn
          injection hn with hn
          cases hn
      obtain ⟨sub0, rfl, h0⟩ := this
      obtain ⟨h1, h2⟩ := ih sub0 h0
      refine ⟨Contains.inside hm h1, ?_⟩
      rintro ⟨h3, n, h4, h5⟩
      refine h2 ⟨h3, n, ?_, h5⟩
      cases path with
      | nil => cases hsub
      | cons a path => rwa [List.getLast?_cons_cons] at h4
  · rintro ⟨h, hk⟩
    induction h with
    | @here es name node hmem =>
      cases node with
      | dir sub => exact Contains.here (node := .dir (deleteWalk ext sub)) ((mem_deleteWalk _ _ _ _).mpr ⟨_, hmem, rfl⟩)
      | file | link b =>
        refine Contains.here ((mem_deleteWalk _ _ _ _).mpr ⟨_, hmem, ?_⟩)
        rw [deleteWalkNode_leaf _ _ _ (by simp), if_neg]
        rintro ⟨h1, h2⟩
        exact hk ⟨h1, name, rfl, h2⟩
    | @inside es name sub path k hmem hsub ih =>
      refine Contains.inside ((mem_deleteWalk _ _ _ _).mpr ⟨_, hmem, rfl⟩) (ih ?_)
      rintro ⟨h1, n, h2, h3⟩
      refine hk ⟨h1, n, ?_, h3⟩
      cases path with
      | nil => cases hsub
      | cons a path => rwa [List.getLast?_cons_cons]

theorem deleteFlat_keep (ext name : List Char) (node : Node) (rest : List (List Char × Node))
    (h : ¬ endsWith name ext = true) :
    deleteFlat ext ((name, node) :: rest) = ((name, node) :: (deleteFlat ext rest).1, (deleteFlat ext rest).2) := by
  cases node <;> simp [deleteFlat, h]

/-- How the loop over `os.listdir` runs up to the first directory that matches. -/
theorem deleteFlat_append (ext : List Char) (pre rest : List (List Char × Node))
    (h : ∀ name sub, (name, Node.dir sub) ∈ pre → ¬ ext <:+ name) :
    deleteFlat ext (pre ++ rest) =
      (pre.filter (fun e => !endsWith e.1 ext) ++ (deleteFlat ext rest).1, (deleteFlat ext rest).2) := by
  induction pre with
  | nil => rfl
  | cons e pre ih =>
    obtain ⟨name, node⟩ := e
    have ih := ih fun n s hm => h n s (List.mem_cons_of_mem _ hm)
    rw [List.cons_append]
    by_cases he : endsWith name ext = true
    · rw [List.filter_cons_of_neg (by simp [he])]
      cases node with
      | dir sub => exact absurd ((endsWith_iff _ _).mp he) (h name sub List.mem_cons_self)
      | file | link b => simpa [deleteFlat, he] using ih
    · rw [deleteFlat_keep _ _ _ _ he, List.filter_cons_of_pos (by simp [he]), ih]
      rfl

/-- C63, `deleteInSubDirectories=False`: if no subdirectory's own name ends with the extension, exactly the entries of
the folder whose names end with it are gone and there is no exception. What is missing: folders with such a
subdirectory, for which the claim fails (`C63_counterexample`, `C63_directory_matches`). -/
theorem C63_flat_partial (es : List (List Char × Node)) (ext : List Char)
    (h : ∀ name sub, (name, Node.dir sub) ∈ es → ¬ ext <:+ name) : ∃ es',
    deleteFilesWithExtension (some es) ext false = (some es', none) ∧
    ∀ e, e ∈ es' ↔ e ∈ es ∧ ¬ ext <:+ e.1 := by
  have := deleteFlat_append ext es [] h
  rw [List.append_nil, show deleteFlat ext [] = ([], none) from rfl, List.append_nil] at this
  refine ⟨es.filter (fun e => !endsWith e.1 ext), by simp only [deleteFilesWithExtension, this], fun e => ?_⟩
  rw [List.mem_filter, Bool.not_eq_true', ← Bool.not_eq_true, endsWith_iff]

/-- C63, the other folders: the call raises at the first matching directory; matching entries listed before it are gone,
everything listed after it stays, matching files included. -/
theorem C63_directory_matches (pre post sub : List (List Char × Node)) (name ext : List Char) (hn : ext <:+ name)
    (h : ∀ name sub, (name, Node.dir sub) ∈ pre → ¬ ext <:+ name) :
    deleteFilesWithExtension (some (pre ++ (name, .dir sub) :: post)) ext false =
      (some (pre.filter (fun e => !endsWith e.1 ext) ++ (name, .dir sub) :: post), some .isADirectoryError) := by
  have : deleteFlat ext ((name, .dir sub) :: post) = ((name, .dir sub) :: post, some .isADirectoryError) := by
    simp [deleteFlat, (endsWith_iff _ _).mpr hn]
  simp only [deleteFilesWithExtension, deleteFlat_append ext pre _ h, this]

/-- C63 fails: in a folder with a directory `old.txt` and a file `a.txt` listed after it, the call raises and `a.txt`
is still there. -/
theorem C63_counterexample : ∃ es ext name, (deleteFilesWithExtension (some es) ext false).2 = some .isADirectoryError ∧
    ext <:+ name ∧ (name, Node.file) ∈ es ∧
    ∃ es', (deleteFilesWithExtension (some es) ext false).1 = some es' ∧ (name, Node.file) ∈ es' := by
  refine ⟨[("old.txt".toList, .dir []), ("a.txt".toList, .file)], ".txt".toList, "a.txt".toList, ?_, ?_, ?_, ?_⟩
  · rfl
  · exact ⟨"a".toList, rfl⟩
  · simp
  · exact ⟨[("old.txt".toList, .dir []), ("a.txt".toList, .file)], rfl, by simp⟩

/-- C63: a folder that does not exist: silence with `deleteInSubDirectories=True`, `FileNotFoundError` without. -/
theorem C63_no_folder (ext : List Char) : deleteFilesWithExtension none ext true = (none, none) ∧
    deleteFilesWithExtension none ext false = (none, some .fileNotFoundError) := ⟨rfl, rfl⟩

/-- A folder with a file to delete, one to keep, and one below: both modes. -/
example : (deleteFilesWithExtension (some [("a.txt".toList, .file), ("b.dat".toList, .file),
      ("d".toList, .dir [("c.txt".toList, .file)])]) ".txt".toList false).1
    = some [("b.dat".toList, .file), ("d".toList, .dir [("c.txt".toList, .file)])] ∧
    (deleteFilesWithExtension (some [("a.txt".toList, .file), ("b.dat".toList, .file),
      ("d".toList, .dir [("c.txt".toList, .file)])]) ".txt".toList true).1
    = some [("b.dat".toList, .file), ("d".toList, .dir [])] := ⟨rfl, rfl⟩

end Optics
