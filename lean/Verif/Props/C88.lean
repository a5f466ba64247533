/-
C88: On Windows too, table-of-contents entries cannot escape the notebook directory.
-/
import Verif.Lemmas.WindowsSpelling

namespace OneNote

open Spec Spec.Windows OneNote.Windows

/-- The path of an entry is the notebook's directory followed by ordinary file names, without slashes,
backslashes and colons, none of them changed by the sanitiser, and if it exists its resolved location
lies inside the directory. The sanitiser must not let colons pass. -/
theorem C88_entry (fs : WFileSystem) (sanitise : Text → Text) (hs : NoColons sanitise) (base : WPath)
    (entry : Text) (p : WPath) (h : Windows.resolveEntryPath fs sanitise base entry = .ok p) :
    WBelow base p ∧ (∀ n, WComponent.normal n ∈ p.drop base.length → sanitise n = n) ∧
      (fs.pathExists p = true → WInside fs base p) := by
  obtain ⟨-, r, h1, h2, rfl, h3⟩ := resolve_ok h
  obtain ⟨k1, names, rfl, k2⟩ := fold_ok
    (fun n _ hn => no_drive fun hc => hs n hc hn) h1
  rw [List.nil_append] at h2 h3 ⊢
  rw [join_names] at h3 ⊢
  obtain ⟨-, -, hp⟩ := components_pieces fun c hc => by
    rcases k1 c hc with rfl | ⟨n, rfl, -⟩
    · exact .inl rfl
    · exact .inr ⟨n, rfl⟩
  refine ⟨⟨names, fun e => h2 (by rw [e]; rfl), fun n hn => ?_, rfl⟩, fun n hn => ?_, h3⟩
  · obtain ⟨a1, a2, a3, a4⟩ := component_name ((hp (.normal n) (by simp)).1 (k2 n hn).1)
    refine ⟨a1, fun hc => ?_, fun hc => ?_, fun hc => hs n hc (k2 n hn).2, a2, a3⟩
    · exact absurd (a4 _ hc) (by decide)
    · exact absurd (a4 _ hc) (by decide)
  · rw [List.drop_left] at hn
    obtain ⟨m, hm, hmn⟩ := List.mem_map.1 hn
    cases hmn
    exact (k2 n hm).2

/-- Whatever the sanitiser does, an entry that exists leads to somewhere inside the directory. -/
theorem C88_inside (fs : WFileSystem) (sanitise : Text → Text) (base : WPath) (entry : Text) (p : WPath)
    (h : Windows.resolveEntryPath fs sanitise base entry = .ok p) (he : fs.pathExists p = true) :
    WInside fs base p := by
  obtain ⟨-, _, -, -, -, h3⟩ := resolve_ok h
  exact h3 he

/-- Entries with a drive letter, a server or a root in front, and entries with a piece `..`, are rejected. -/
theorem C88_rejected (fs : WFileSystem) (sanitise : Text → Text) (base : WPath) (entry : Text)
    (h : (∃ c rest, entry = c :: ':' :: rest ∧ c.isAlpha = true) ∨
      (∃ c rest, entry = c :: rest ∧ (c = '/' ∨ c = '\\')) ∨
      (∃ a b, entry = a ++ ['.', '.'] ++ b ∧
        (a = [] ∨ ∃ a' c, a = a' ++ [c] ∧ (c = '/' ∨ c = '\\')) ∧
        (b = [] ∨ ∃ c b', b = c :: b' ∧ (c = '/' ∨ c = '\\')))) :
    Windows.resolveEntryPath fs sanitise base entry = .error .invalidPath := by
  cases hr : Windows.resolveEntryPath fs sanitise base entry with
  | error e => rw [resolve_error hr]
  | ok p =>
    exfalso
    obtain ⟨-, r, h1, -, -, -⟩ := resolve_ok hr
    obtain ⟨g1, g2, g3⟩ := components_pieces fun c hc => by
      rcases fold_parts h1 c hc with rfl | ⟨n, rfl, -⟩
      · exact .inl rfl
      · exact .inr ⟨n, rfl⟩
    rcases h with ⟨c, rest, rfl, hc⟩ | ⟨c, rest, rfl, hc⟩ | ⟨a, b, rfl, ha, hb⟩
    · unfold parsePrefix at g1
      dsimp only at g1
      split at g1
      · rename_i hx
        rw [Bool.and_eq_true] at hx
        exact absurd hx.2 (by decide)
      · rw [if_pos (show startsWithDrive (c :: ':' :: rest) = true from hc)] at g1
        cases g1
    · unfold hasPhysicalRoot at g2
      rw [g1] at g2
      have g2 : isSep false c = false := g2
      rcases hc with rfl | rfl <;> exact absurd g2 (by decide)
    · have sep : ∀ c : Char, c = '/' ∨ c = '\\' → isSep false c = true := by
        rintro c (rfl | rfl) <;> rfl
      have hm := piece_sep (p := ['.', '.']) (a := a) (b := b) (by decide)
        (ha.imp id fun ⟨a', c, e, hc⟩ => ⟨a', c, e, sep c hc⟩)
        (hb.imp id fun ⟨c, b', e, hc⟩ => ⟨c, b', e, sep c hc⟩)
      have hm : WComponent.parentDir ∈ Windows.componentsOf (a ++ ['.', '.'] ++ b) :=
        (g3 .parentDir (by simp)).2 (List.mem_filterMap.2 ⟨_, hm, rfl⟩)
      rcases fold_parts h1 _ hm with h | ⟨n, h, -⟩ <;> cases h

/-- The sanitiser is needed: without it the entry `a\C:\b` leads from the directory `C:\n` to the file `b`
in the current directory. -/
theorem C88_without_sanitiser :
    ∃ fs : WFileSystem, Windows.resolveEntryPath fs id [.prefixed ['C', ':'], .rootDir, .normal ['n']]
      ['a', '\\', 'C', ':', '\\', 'b'] = .ok [.prefixed ['C', ':'], .normal ['b']] :=
  ⟨⟨fun _ => false, fun _ => false, fun _ => none, fun _ => none, fun _ => none⟩, by decide⟩

/-- The entry `g\s.one` of a notebook in `C:\n`. -/
example : ∃ (fs : WFileSystem) (p : WPath), NoColons (fun s => s.filter (· ≠ ':')) ∧
    Windows.resolveEntryPath fs (fun s => s.filter (· ≠ ':'))
      [.prefixed ['C', ':'], .rootDir, .normal ['n']] ['g', '\\', 's', '.', 'o', 'n', 'e'] = .ok p ∧
    fs.pathExists p = true := by
  refine ⟨⟨fun _ => true, fun _ => true, some, fun _ => none, fun _ => none⟩,
    [.prefixed ['C', ':'], .rootDir, .normal ['n'], .normal ['g'], .normal ['s', '.', 'o', 'n', 'e']],
    fun name hc h => ?_, by decide, rfl⟩
  rw [← h] at hc
  exact absurd (List.mem_filter.1 hc).2 (by decide)

/-- Entries that are rejected. -/
example : ∃ a b c : Text, a = ['C', ':', 'x'] ∧ b = ['\\', '\\', 's', '\\', 'x'] ∧
    c = ['x', '/', '.', '.', '\\', 'y'] ∧ (∃ c rest, a = c :: ':' :: rest ∧ c.isAlpha = true) ∧
    (∃ c rest, b = c :: rest ∧ (c = '/' ∨ c = '\\')) ∧
    ∃ p q, c = p ++ ['.', '.'] ++ q ∧ (p = [] ∨ ∃ p' c, p = p' ++ [c] ∧ (c = '/' ∨ c = '\\')) ∧
      (q = [] ∨ ∃ c q', q = c :: q' ∧ (c = '/' ∨ c = '\\')) :=
  ⟨_, _, _, rfl, rfl, rfl, ⟨'C', ['x'], rfl, by decide⟩, ⟨'\\', _, rfl, .inr rfl⟩, ['x', '/'], ['\\', 'y'], rfl,
    .inr ⟨['x'], '/', rfl, .inl rfl⟩, .inr ⟨'\\', ['y'], rfl, .inr rfl⟩⟩

/-! ### How paths are read on Windows -/

/-- A path on a drive, such as `C:\a/b`, is read as the drive, its root and the names. -/
theorem C88_drive (d : Char) (hd : d.isAlpha = true) (names : List (Char × Text)) (hn : Spelled names)
    (h : names ≠ []) : Windows.componentsOf (d :: ':' :: spelled names) =
      .prefixed [d, ':'] :: .rootDir :: names.map fun x => .normal x.2 := by
  have hn' : ∀ x ∈ names, isSep false x.1 = true ∧ WFileName x.2 :=
    fun x hx => ⟨sep_iff.2 (hn x hx).1, (hn x hx).2⟩
  have hr : hasPhysicalRoot (d :: ':' :: spelled names) = true := by
    unfold hasPhysicalRoot
    rw [drive_prefix hd]
    cases names with
    | nil => exact absurd rfl h
    | cons x xs => exact (hn' x (.head _)).1
  unfold Windows.componentsOf
  rw [drive_prefix hd, hr]
  show WComponent.prefixed [d, ':'] :: WComponent.rootDir :: (splitSep false (spelled names)).filterMap (Windows.pieceOf false) = _
  rw [spelled_body hn']

/-- A name directly after a drive, such as `C:a`, is one in the current directory of the drive. -/
theorem C88_drive_relative (d : Char) (hd : d.isAlpha = true) (name : Text) (hn : WFileName name) :
    Windows.componentsOf (d :: ':' :: name) = [.prefixed [d, ':'], .normal name] := by
  have hr : hasPhysicalRoot (d :: ':' :: name) = false := by
    unfold hasPhysicalRoot
    rw [drive_prefix hd]
    cases name with
    | nil => rfl
    | cons c name => exact name_seps hn c (.head _)
  unfold Windows.componentsOf
  rw [drive_prefix hd, hr]
  show WComponent.prefixed [d, ':'] ::
    (if (true && decide ((splitSep false name).head? = some ['.'])) = true then
      WComponent.curDir :: (splitSep false name).filterMap (Windows.pieceOf false)
    else (splitSep false name).filterMap (Windows.pieceOf false)) = _
  rw [splitSep_piece (name_seps hn), if_neg (by simpa using hn.2.2.2.2.1), names_body (by simpa using hn)]
  rfl

/-- A path on a server, such as `\\server\share\a`, is read as the server with the share, the root and the
names. -/
theorem C88_share (a b c : Char) (server share : Text) (names : List (Char × Text))
    (hs : Spelled [(b, server), (c, share)]) (ha : a = '/' ∨ a = '\\') (hn : Spelled names)
    (hq : server.head? ≠ some '?') (hd : server.head? ≠ some '.') :
    Windows.componentsOf (a :: spelled ((b, server) :: (c, share) :: names)) =
      .prefixed (a :: b :: (server ++ c :: share)) :: .rootDir :: names.map fun x => .normal x.2 := by
  obtain ⟨hb, hs1⟩ := hs _ (.head _)
  obtain ⟨hc, hs2⟩ := hs _ (.tail _ (.head _))
  have hn' : ∀ x ∈ names, isSep false x.1 = true ∧ WFileName x.2 :=
    fun x hx => ⟨sep_iff.2 (hn x hx).1, (hn x hx).2⟩
  have hp := server_prefix (names := names) (sep_iff.2 ha) (sep_iff.2 hb) (sep_iff.2 hc) hs1 hq hd hs2
    fun x hx => (hn' x hx).1
  rw [show spelled ((b, server) :: (c, share) :: names) =
    b :: (server ++ c :: (share ++ spelled names)) from rfl]
  have e : a :: b :: (server ++ c :: (share ++ spelled names)) =
      (a :: b :: (server ++ c :: share)) ++ spelled names := by simp
  have hl : (a :: b :: (server ++ c :: share)).length = 2 + (server.length + (1 + share.length)) := by
    simp; omega
  unfold Windows.componentsOf
  rw [hp]
  dsimp only
  rw [e, ← hl, List.take_left, List.drop_left, spelled_body hn', Bool.or_comm]
  rfl

/-- A server without a share is a directory of the root. -/
theorem C88_server (a b : Char) (server : Text) (ha : a = '/' ∨ a = '\\') (hb : b = '/' ∨ b = '\\')
    (hs : WFileName server) (hq : server.head? ≠ some '?') (hd : server.head? ≠ some '.') :
    Windows.componentsOf (a :: b :: server) = [.rootDir, .normal server] := by
  have hp := server_only (sep_iff.2 ha) (sep_iff.2 hb) hs hq hd
  have hr : hasPhysicalRoot (a :: b :: server) = true := by
    unfold hasPhysicalRoot
    rw [hp]
    exact sep_iff.2 ha
  unfold Windows.componentsOf
  rw [hp, hr]
  show WComponent.rootDir :: (splitSep false (a :: b :: server)).filterMap (Windows.pieceOf false) = _
  rw [splitSep, if_pos (sep_iff.2 ha), splitSep, if_pos (sep_iff.2 hb), splitSep_piece (name_seps hs)]
  show WComponent.rootDir :: [server].filterMap (Windows.pieceOf false) = _
  rw [names_body (by simpa using hs)]
  rfl

/-- A resolved path, such as `\\?\C:\a`, is read as the drive, its root and the names. -/
theorem C88_verbatim_drive (d : Char) (hd : d.isAlpha = true) (names : List (Char × Text))
    (hn : Backslashed names) (h : names ≠ []) :
    Windows.componentsOf ('\\' :: '\\' :: '?' :: '\\' :: d :: ':' :: spelled names) =
      .prefixed ['\\', '\\', '?', '\\', d, ':'] :: .rootDir :: names.map fun x => .normal x.2 := by
  have hn' : ∀ x ∈ names, isSep true x.1 = true ∧ WFileName x.2 :=
    fun x hx => ⟨sep_verbatim.2 (hn x hx).1, (hn x hx).2⟩
  obtain ⟨x, xs, rfl⟩ : ∃ x xs, names = x :: xs := by
    cases names with
    | nil => exact absurd rfl h
    | cons x xs => exact ⟨x, xs, rfl⟩
  have hx : x.1 = '\\' := (hn x (.head _)).1
  have hp : parsePrefix ('\\' :: '\\' :: '?' :: '\\' :: d :: ':' :: spelled (x :: xs)) =
      some ⟨6, true, false⟩ := by
    show (if _ then _ else if _ then _ else _) = _
    rw [if_neg (fun e => by
      have e := (Bool.and_eq_true _ _ ▸ e).1
      exact absurd (congrArg (fun l => l[1]?) (of_decide_eq_true e)) (by simp)),
      if_pos (by
        show (d.isAlpha && isSep false x.1) = true
        rw [hd, hx]; rfl)]
  have hr : hasPhysicalRoot ('\\' :: '\\' :: '?' :: '\\' :: d :: ':' :: spelled (x :: xs)) = true := by
    unfold hasPhysicalRoot
    rw [hp]
    show isSep false x.1 = true
    rw [hx]; rfl
  unfold Windows.componentsOf
  rw [hp, hr]
  show WComponent.prefixed ['\\', '\\', '?', '\\', d, ':'] :: WComponent.rootDir ::
    (splitSep true (spelled (x :: xs))).filterMap (Windows.pieceOf true) = _
  rw [spelled_body hn']

/-- Paths with a prefix and a root are absolute, and those without a prefix are not. -/
theorem C88_absolute (s : Text) :
    ((∃ p rest, Windows.componentsOf s = .prefixed p :: .rootDir :: rest) → Windows.isAbsolute s = true) ∧
      (Windows.isAbsolute s = true → ∃ p rest, Windows.componentsOf s = .prefixed p :: rest) := by
  have hb : ∀ v ps p rest, List.filterMap (Windows.pieceOf v) ps ≠ WComponent.prefixed p :: rest ∧
      List.filterMap (Windows.pieceOf v) ps ≠ WComponent.rootDir :: rest := by
    intro v ps p rest
    constructor <;> intro h
    all_goals
      obtain ⟨x, -, hx⟩ := List.mem_filterMap.1 (h ▸ List.mem_cons_self)
      unfold Windows.pieceOf at hx
      repeat' split at hx
      all_goals cases hx
  unfold Windows.isAbsolute Windows.componentsOf
  cases hp : parsePrefix s with
  | none =>
    refine ⟨fun ⟨p, rest, h⟩ => ?_, nofun⟩
    dsimp only at h
    repeat' split at h
    · cases h
    · cases h
    · exact absurd h (hb _ _ _ _).1
  | some k =>
    refine ⟨fun ⟨p, rest, h⟩ => ?_, fun _ => ⟨_, _, rfl⟩⟩
    dsimp only at h ⊢
    have h := (List.cons.inj h).2
    split at h
    · rename_i hr
      cases hd : k.drive with
      | false => rfl
      | true => rw [hd] at hr; simpa using hr
    · split at h
      · cases h
      · exact absurd h (hb _ _ [] _).2

/-- A name directly after a drive is not absolute. -/
theorem C88_drive_not_absolute (d : Char) (hd : d.isAlpha = true) (name : Text) (hn : WFileName name) :
    Windows.isAbsolute (d :: ':' :: name) = false := by
  unfold Windows.isAbsolute hasPhysicalRoot
  rw [drive_prefix hd]
  cases name with
  | nil => rfl
  | cons c name => exact name_seps hn c (.head _)

/-- Absolute and relative paths. -/
example : Windows.isAbsolute ['\\', '/', 's', '\\', 'h', '\\', 'b'] = true ∧
    Windows.isAbsolute ['C', ':', 'a'] = false :=
  ⟨(C88_absolute _).1 ⟨_, _, C88_share '\\' '/' '\\' ['s'] ['h'] [('\\', ['b'])]
      (by unfold Spelled WFileName; decide) (.inr rfl) (by unfold Spelled WFileName; decide) (by decide)
      (by decide)⟩, C88_drive_not_absolute 'C' (by decide) ['a'] (by unfold WFileName; decide)⟩

/-- Such paths. -/
example : Windows.componentsOf ['C', ':', '\\', 'a', '/', 'b'] =
      [.prefixed ['C', ':'], .rootDir, .normal ['a'], .normal ['b']] ∧
    Windows.componentsOf ['\\', '/', 's', '\\', 'h', '\\', 'b'] =
      [.prefixed ['\\', '/', 's', '\\', 'h'], .rootDir, .normal ['b']] :=
  ⟨C88_drive 'C' (by decide) [('\\', ['a']), ('/', ['b'])] (by unfold Spelled WFileName; decide) nofun,
    C88_share '\\' '/' '\\' ['s'] ['h'] [('\\', ['b'])] (by unfold Spelled WFileName; decide) (.inr rfl)
      (by unfold Spelled WFileName; decide) (by decide) (by decide)⟩

example : Windows.componentsOf ['C', ':', 'a'] = [.prefixed ['C', ':'], .normal ['a']] ∧
    Windows.componentsOf ['\\', '\\', 's'] = [.rootDir, .normal ['s']] ∧
    Windows.componentsOf ['\\', '\\', '?', '\\', 'C', ':', '\\', 'a'] =
      [.prefixed ['\\', '\\', '?', '\\', 'C', ':'], .rootDir, .normal ['a']] :=
  ⟨C88_drive_relative 'C' (by decide) ['a'] (by unfold WFileName; decide),
    C88_server '\\' '\\' ['s'] (.inr rfl) (.inr rfl) (by unfold WFileName; decide) (by decide) (by decide),
    C88_verbatim_drive 'C' (by decide) [('\\', ['a'])] (by unfold Backslashed WFileName; decide) nofun⟩

#print axioms C88_entry
#print axioms C88_inside
#print axioms C88_rejected
#print axioms C88_without_sanitiser
#print axioms C88_drive
#print axioms C88_drive_relative
#print axioms C88_share
#print axioms C88_server
#print axioms C88_verbatim_drive
#print axioms C88_absolute
#print axioms C88_drive_not_absolute

end OneNote
