/-
Windows paths.
-/
import Verif.Spec.Windows
import Verif.Lemmas.Path
import Verif.Lemmas.WholeNotebook

namespace OneNote.Windows

open Spec Spec.Windows

/-! ### Components -/

theorem splitSep_ne_nil (v : Bool) (s : Text) : splitSep v s ≠ [] := by
  cases s with
  | nil => simp [splitSep]
  | cons c s =>
    unfold splitSep
    split
    · simp
    · split <;> simp

theorem mem_splitSep {v : Bool} {s p : Text} (h : p ∈ splitSep v s) : ∀ c ∈ p, isSep v c = false := by
  induction s generalizing p with
  | nil =>
    simp [splitSep] at h
    simp [h]
  | cons c s ih =>
    unfold splitSep at h
    split at h
    · rcases List.mem_cons.1 h with rfl | h
      · simp
      · exact ih h
    · rename_i hc
      split at h
      · rename_i hs
        exact absurd hs (splitSep_ne_nil v s)
      · rename_i q qs hs
        rw [hs] at ih
        rcases List.mem_cons.1 h with rfl | h
        · intro x hx
          rcases List.mem_cons.1 hx with rfl | hx
          · simpa using hc
          · exact ih (by simp) x hx
        · exact ih (by simp [h])

theorem drive_colon {name : Text} (h : startsWithDrive name = true) : ':' ∈ name := by
  unfold startsWithDrive at h
  split at h
  · simp
  · cases h

/-- A relative entry without a prefix has ordinary names as components. -/
theorem component_name {v : Bool} {s name : Text} (h : .normal name ∈ (splitSep v s).filterMap (pieceOf v))
    : name ≠ [] ∧ name ≠ ['.'] ∧ name ≠ ['.', '.'] ∧ ∀ c ∈ name, isSep v c = false := by
  obtain ⟨p, hp, he⟩ := List.mem_filterMap.1 h
  unfold pieceOf at he
  split at he
  · cases he
  · split at he
    · split at he <;> cases he
    · split at he
      · cases he
      · rename_i h1 h2 h3
        cases he
        exact ⟨h1, h2, h3, mem_splitSep hp⟩

theorem fold_ok {sanitise : Text → Text} {cs : List WComponent} {acc r : WPath}
    (hs : ∀ n, .normal n ∈ cs → sanitise n = n → startsWithDrive n = false)
    (h : cs.foldlM (resolveComponent sanitise) acc = .ok r) :
    (∀ c ∈ cs, c = .curDir ∨ ∃ n, c = .normal n ∧ sanitise n = n) ∧
      ∃ names : List Text, r = acc ++ names.map .normal ∧
        ∀ n ∈ names, .normal n ∈ cs ∧ sanitise n = n := by
  induction cs generalizing acc with
  | nil =>
    cases h
    exact ⟨fun _ h => (nomatch h), [], by simp, fun _ h => (nomatch h)⟩
  | cons c cs ih =>
    rw [List.foldlM_cons] at h
    obtain ⟨acc', h1, h2⟩ := Res.bind_ok_iff.1 h
    obtain ⟨k1, names, rfl, k2⟩ := ih (fun n hn => hs n (.tail _ hn)) h2
    cases c with
    | normal n =>
      unfold resolveComponent at h1
      dsimp only at h1
      split at h1
      · cases h1
      · rename_i hn
        have hn : sanitise n = n := Classical.byContradiction hn
        cases h1
        refine ⟨fun c hc => ?_, n :: names, ?_, fun m hm => ?_⟩
        · rcases List.mem_cons.1 hc with rfl | hc
          · exact .inr ⟨n, rfl, hn⟩
          · exact k1 c hc
        · unfold WPath.push
          rw [hs n (.head _) hn]
          simp
        · rcases List.mem_cons.1 hm with rfl | hm
          · exact ⟨.head _, hn⟩
          · exact ⟨.tail _ (k2 m hm).1, (k2 m hm).2⟩
    | curDir =>
      cases h1
      refine ⟨fun c hc => ?_, names, rfl, fun m hm => ⟨.tail _ (k2 m hm).1, (k2 m hm).2⟩⟩
      rcases List.mem_cons.1 hc with rfl | hc
      · exact .inl rfl
      · exact k1 c hc
    | parentDir => cases h1
    | rootDir => cases h1
    | prefixed t => cases h1

/-- Only names that the sanitiser leaves alone and `.` are accepted. -/
theorem fold_parts {sanitise : Text → Text} {cs : List WComponent} {acc r : WPath}
    (h : cs.foldlM (resolveComponent sanitise) acc = .ok r) :
    ∀ c ∈ cs, c = .curDir ∨ ∃ n, c = .normal n ∧ sanitise n = n := by
  induction cs generalizing acc with
  | nil => exact fun _ h => (nomatch h)
  | cons c cs ih =>
    rw [List.foldlM_cons] at h
    obtain ⟨acc', h1, h2⟩ := Res.bind_ok_iff.1 h
    intro x hx
    rcases List.mem_cons.1 hx with rfl | hx
    · cases x with
      | normal n =>
        unfold resolveComponent at h1
        dsimp only at h1
        split at h1
        · cases h1
        · rename_i hn
          exact .inr ⟨n, rfl, Classical.byContradiction hn⟩
      | curDir => exact .inl rfl
      | parentDir => cases h1
      | rootDir => cases h1
      | prefixed t => cases h1
    · exact ih h2 x hx

theorem fold_error {sanitise : Text → Text} {cs : List WComponent} {acc : WPath} {e : Err}
    (h : cs.foldlM (resolveComponent sanitise) acc = .error e) : e = .invalidPath := by
  induction cs generalizing acc with
  | nil => cases h
  | cons c cs ih =>
    rw [List.foldlM_cons] at h
    cases hc : resolveComponent sanitise acc c with
    | ok acc' =>
      rw [hc] at h
      exact ih h
    | error e' =>
      rw [hc] at h
      cases h
      cases c with
      | normal n =>
        unfold resolveComponent at hc
        dsimp only at hc
        split at hc
        · cases hc; rfl
        · cases hc
      | curDir => cases hc
      | parentDir => cases hc; rfl
      | rootDir => cases hc; rfl
      | prefixed t => cases hc; rfl

theorem splitSep_sep {v : Bool} {c : Char} (hc : isSep v c = true) (a t : Text) :
    splitSep v (a ++ c :: t) = splitSep v a ++ splitSep v t := by
  induction a with
  | nil => simp [splitSep, hc]
  | cons x a ih =>
    rw [List.cons_append, splitSep, ih]
    conv => rhs; rw [splitSep]
    split
    · rfl
    · cases h : splitSep v a with
      | nil => exact absurd h (splitSep_ne_nil v a)
      | cons p ps => rfl

theorem splitSep_piece {v : Bool} {p : Text} (h : ∀ c ∈ p, isSep v c = false) : splitSep v p = [p] := by
  induction p with
  | nil => rfl
  | cons c p ih =>
    unfold splitSep
    rw [h c (.head _), ih fun x hx => h x (.tail _ hx)]
    rfl

/-- A piece between two separators. -/
theorem piece_sep {p a b : Text} (h : ∀ c ∈ p, isSep false c = false)
    (ha : a = [] ∨ ∃ a' c, a = a' ++ [c] ∧ isSep false c = true)
    (hb : b = [] ∨ ∃ c b', b = c :: b' ∧ isSep false c = true) : p ∈ splitSep false (a ++ p ++ b) := by
  have h1 : p ∈ splitSep false (p ++ b) := by
    rcases hb with rfl | ⟨c, b', rfl, hc⟩
    · rw [List.append_nil, splitSep_piece h]
      exact .head _
    · rw [splitSep_sep hc, splitSep_piece h]
      exact .head _
  rcases ha with rfl | ⟨a', c, rfl, hc⟩
  · exact h1
  · rw [List.append_assoc, List.append_assoc]
    show p ∈ splitSep false (a' ++ c :: (p ++ b))
    rw [splitSep_sep hc]
    exact List.mem_append_right _ h1

theorem join_names (base : WPath) (names : List Text) :
    WPath.join base (names.map .normal) = base ++ names.map .normal := by
  cases names <;> rfl

theorem checkInside_ok {fs : WFileSystem} {base p : WPath} (h : checkInside fs base p = .ok ())
    (he : fs.pathExists p = true) : WInside fs base p := by
  unfold checkInside at h
  rw [if_pos he] at h
  obtain ⟨b, hb, h⟩ := Res.bind_ok_iff.1 h
  obtain ⟨c, hc, h⟩ := Res.bind_ok_iff.1 h
  split at h
  · rename_i hs
    obtain ⟨rest, hr⟩ := List.isPrefixOf_iff_prefix.1 hs
    exact ⟨b, c, rest, orErr_some hb, orErr_some hc, hr.symm⟩
  · cases h

/-- What an accepted entry leads to. -/
theorem resolve_ok {fs : WFileSystem} {sanitise : Text → Text} {base : WPath} {entry : Text} {p : WPath}
    (h : resolveEntryPath fs sanitise base entry = .ok p) :
    isAbsolute entry = false ∧ ∃ r, (componentsOf entry).foldlM (resolveComponent sanitise) [] = .ok r ∧
      r ≠ [] ∧ p = WPath.join base r ∧ (fs.pathExists p = true → WInside fs base p) := by
  unfold resolveEntryPath at h
  split at h
  · cases h
  · rename_i ha
    obtain ⟨r, h1, h⟩ := Res.bind_ok_iff.1 h
    split at h
    · cases h
    · rename_i hne
      obtain ⟨u, h2, h⟩ := Res.bind_ok_iff.1 h
      cases h
      exact ⟨by simpa using ha, r, h1, by simpa using hne, rfl, checkInside_ok h2⟩

theorem resolve_error {fs : WFileSystem} {sanitise : Text → Text} {base : WPath} {entry : Text} {e : Err}
    (h : resolveEntryPath fs sanitise base entry = .error e) : e = .invalidPath := by
  unfold resolveEntryPath at h
  split at h
  · cases h; rfl
  cases hf : (componentsOf entry).foldlM (resolveComponent sanitise) [] with
  | error e' =>
    rw [hf] at h
    cases h
    exact fold_error hf
  | ok r =>
    rw [hf] at h
    replace h : (if r.isEmpty = true then (Except.error .invalidPath : Res WPath) else
      checkInside fs base (WPath.join base r) >>= fun _ => pure (WPath.join base r)) = .error e := h
    split at h
    · cases h; rfl
    · unfold checkInside at h
      split at h
      · cases hb : fs.canonicalize base with
        | none => rw [hb] at h; cases h; rfl
        | some b =>
          cases hc : fs.canonicalize (WPath.join base r) with
          | none => rw [hb, hc] at h; cases h; rfl
          | some c =>
            rw [hb, hc] at h
            replace h : ((if WPath.startsWith c b = true then pure () else .error .invalidPath : Res Unit) >>=
              fun _ => pure (WPath.join base r)) = .error e := h
            split at h
            · cases h
            · cases h; rfl
      · cases h

/-- Components that are accepted come from an entry without a prefix. -/
theorem components_pieces {entry : Text} (h : ∀ c ∈ componentsOf entry, c = .curDir ∨ ∃ n, c = .normal n) :
    parsePrefix entry = none ∧ hasPhysicalRoot entry = false ∧
      ∀ c, c ≠ .curDir → (c ∈ componentsOf entry ↔
        c ∈ (splitSep false entry).filterMap (pieceOf false)) := by
  unfold componentsOf at h ⊢
  cases hp : parsePrefix entry with
  | some k =>
    rw [hp] at h
    dsimp only at h
    rcases h _ (.head _) with h | ⟨n, h⟩ <;> cases h
  | none =>
    rw [hp] at h
    dsimp only at h ⊢
    cases hr : hasPhysicalRoot entry with
    | true =>
      rw [hr] at h
      rcases h _ (.head _) with h | ⟨n, h⟩ <;> cases h
    | false =>
      refine ⟨rfl, rfl, fun c hc => ?_⟩
      rw [if_neg (by simp)]
      split
      · rw [List.mem_cons]
        simp [hc]
      · exact Iff.rfl

/-! ### Portable names -/

theorem isSep_portable {c : Char} (h : c ≠ '\\') : isSep false c = decide (c = '/') := by
  unfold isSep
  simp [h]

theorem splitSep_portable {s : Text} (h : '\\' ∉ s) : splitSep false s = splitSlash s := by
  induction s with
  | nil => rfl
  | cons c s ih =>
    rw [List.mem_cons, not_or] at h
    unfold splitSep splitSlash
    rw [ih h.2, isSep_portable (Ne.symm h.1)]
    simp only [decide_eq_true_eq]
    split
    · rfl
    · cases splitSlash s <;> rfl

theorem pieceOf_portable (p : Text) :
    pieceOf false p = (OneNote.pieceOf p).map onWindows := by
  unfold pieceOf OneNote.pieceOf
  split
  · rfl
  · split
    · rfl
    · split <;> rfl

theorem pieces_portable (ps : List Text) :
    ps.filterMap (pieceOf false) = (ps.filterMap OneNote.pieceOf).map onWindows := by
  induction ps with
  | nil => rfl
  | cons p ps ih =>
    rw [List.filterMap_cons, List.filterMap_cons, pieceOf_portable, ih]
    cases OneNote.pieceOf p <;> rfl

theorem no_drive {s : Text} (h : ':' ∉ s) : startsWithDrive s = false := by
  cases hd : startsWithDrive s with
  | false => rfl
  | true => exact absurd (drive_colon hd) h

theorem no_prefix {s : Text} (h : PortableName s) (hr : s.head? ≠ some '/') : parsePrefix s = none := by
  unfold parsePrefix
  split
  · rename_i a b rest
    have h1 : isSep false a = false := by
      rw [isSep_portable (fun e => h.1 (e ▸ .head _))]
      simpa using hr
    rw [h1, no_drive h.2]
    rfl
  · rfl

theorem components_portable {s : Text} (h : PortableName s) (hr : s.head? ≠ some '/') :
    componentsOf s = (OneNote.componentsOf s).map onWindows := by
  have hp := no_prefix h hr
  have h1 : hasPhysicalRoot s = false := by
    unfold hasPhysicalRoot
    rw [hp]
    cases s with
    | nil => rfl
    | cons c s =>
      show isSep false c = false
      rw [isSep_portable (fun e => h.1 (e ▸ .head _))]
      simpa using hr
  have h2 : OneNote.isAbsolute s = false := by
    unfold OneNote.isAbsolute
    simpa using hr
  unfold componentsOf OneNote.componentsOf
  rw [hp]
  dsimp only
  rw [h1, h2, splitSep_portable h.1, pieces_portable]
  split
  · simp_all
  · split
    · rfl
    · rfl

theorem fold_portable {sanitise : Text → Text} {cs : List Component} {acc : WPath}
    (h : ∀ n, .normal n ∈ cs → startsWithDrive n = false) :
    (cs.map onWindows).foldlM (resolveComponent sanitise) acc =
      (fun parts => acc ++ (parts.filterMap fun x => x).map onWindows) <$>
        cs.mapM (OneNote.resolveComponent sanitise) := by
  induction cs generalizing acc with
  | nil =>
    show Except.ok acc = Except.ok (acc ++ [])
    simp
  | cons c cs ih =>
    rw [List.map_cons, List.foldlM_cons, List.mapM_cons]
    have ih : ∀ acc : WPath, (cs.map onWindows).foldlM (resolveComponent sanitise) acc = _ :=
      fun acc => ih (acc := acc) fun n hn => h n (.tail _ hn)
    cases c with
    | rootDir => rfl
    | parentDir => rfl
    | curDir =>
      show (cs.map onWindows).foldlM (resolveComponent sanitise) acc = _
      rw [ih]
      show _ = (fun parts => acc ++ (parts.filterMap fun x => x).map onWindows) <$>
        (cs.mapM (OneNote.resolveComponent sanitise) >>= fun rest => pure (none :: rest))
      cases cs.mapM (OneNote.resolveComponent sanitise) <;> rfl
    | normal n =>
      show (if sanitise n ≠ n then (Except.error .invalidPath : Res WPath)
          else .ok (WPath.push acc n)) >>= _ = _ <$> ((if sanitise n ≠ n then
            (Except.error .invalidPath : Res (Option Component)) else .ok (some (.normal n))) >>= _)
      by_cases hn : sanitise n ≠ n
      · rw [if_pos hn, if_pos hn]
        rfl
      · rw [if_neg hn, if_neg hn]
        show (cs.map onWindows).foldlM (resolveComponent sanitise) (WPath.push acc n) = _
        rw [ih]
        unfold WPath.push
        rw [h n (.head _)]
        show _ = (fun parts => acc ++ (parts.filterMap fun x => x).map onWindows) <$>
          (cs.mapM (OneNote.resolveComponent sanitise) >>= fun rest => pure (some (.normal n) :: rest))
        cases cs.mapM (OneNote.resolveComponent sanitise) with
        | error e => rfl
        | ok parts =>
          show Except.ok _ = Except.ok _
          simp [onWindows]

/-- An entry that begins with a slash is rejected. -/
theorem resolve_slash {fs : WFileSystem} {sanitise : Text → Text} {base : WPath} {entry : Text}
    (h : entry.head? = some '/') : resolveEntryPath fs sanitise base entry = .error .invalidPath := by
  have key : ∀ acc, (componentsOf entry).foldlM (resolveComponent sanitise) acc = .error .invalidPath := by
    intro acc
    unfold componentsOf
    split
    · rename_i hp
      have : hasPhysicalRoot entry = true := by
        unfold hasPhysicalRoot
        rw [hp]
        dsimp only
        rw [h]
        rfl
      dsimp only
      rw [if_pos this]
      rfl
    · rfl
  unfold resolveEntryPath
  split
  · rfl
  · rw [key]
    rfl

end OneNote.Windows
