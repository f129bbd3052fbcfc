import Mathlib.Data.List.Infix
import Mathlib.Data.List.Basic

/-!
# Finding a scenario (src/dg_commons/sim/scenarios/utils.py:20-47)

Names and paths are lists of characters, except that the file found is given by its directories, relative to the
directory that is searched, and its name. `os.walk` is given a finite directory tree: links are directories like others
(`followlinks=True`), and a loop of links, on which `os.walk` does not end, is not a finite tree. The parser of the file
is left out.
-/

namespace Verif
namespace Load

/-- Names. -/
abbrev Text := List Char

mutual
/-- What `os.walk` reads of a directory: the files and the subdirectories, in the order in which `os.scandir` gives
them. -/
inductive Dir where
  | node (files : List Text) (subs : Dirs)

/-- Subdirectories. -/
inductive Dirs where
  | nil
  | cons (name : Text) (d : Dir) (rest : Dirs)
end

mutual
/-- `os.walk`, from the top: the path and the files of each directory, first those of the directory itself, then those of
each of its subdirectories in turn. -/
def Dir.walk (root : List Text) : Dir → List (List Text × List Text)
  | .node files subs => (root, files) :: subs.walk root

/-- The loop of `os.walk` over the subdirectories. -/
def Dirs.walk (root : List Text) : Dirs → List (List Text × List Text)
  | .nil => []
  | .cons name d rest => d.walk (root ++ [name]) ++ rest.walk root
end

/-- The inner loop, utils.py:36-39: `break` leaves this loop only. -/
def scanFiles (name : Text) (root : List Text) : List Text → Option (List Text) → Option (List Text)
  | [], found => found
  | f :: fs, found => if f = name then some (root ++ [f]) else scanFiles name root fs found

/-- The outer loop, utils.py:34-39. -/
def scan (name : Text) : List (List Text × List Text) → Option (List Text) → Option (List Text)
  | [], found => found
  | (root, files) :: rest, found => scan name rest (scanFiles name root files found)

/-- Utils.py:32. -/
def withXml (name : Text) : Text :=
  if ".xml".toList <:+ name then name else name ++ ".xml".toList

/-- The errors of `load_commonroad_scenario`. -/
inductive LoadErr where
  | assertion
  | notFound
  deriving DecidableEq, Repr

/-- Utils.py:32-45: the file that is opened. A directory that does not exist (`none`) makes `os.walk` yield nothing. -/
def findScenario (dir : Option Dir) (name : Text) : Except LoadErr (List Text) :=
  let entries := match dir with
    | none => []
    | some d => d.walk []
  match scan (withXml name) entries none with
  | none => .error .notFound
  | some p => .ok p

/-- `re.split(pat, s)[0]`: the text in front of the first occurrence. -/
def before (pat : Text) : Text → Text
  | [] => []
  | c :: cs => if pat <+: c :: cs then [] else c :: before pat cs

/-- `os.path.join(d, name)` for a relative name. -/
def join (d name : Text) : Text :=
  if d = [] ∨ d.getLast? = some '/' then d ++ name else d ++ '/' :: name

/-- Utils.py:25-30: the directory that is searched by default; `file` is `__file__`, the path of utils.py. -/
def defaultDir (isDir : Text → Bool) (file : Text) : Except LoadErr Text :=
  if ¬ "src".toList <:+: file then .error .assertion
  else
    let root := before "src".toList file
    if isDir root then .ok (join root "scenarios".toList) else .error .assertion

/-- `load_commonroad_scenario`, utils.py:20-45, up to the parser: `disk` gives the tree of a directory. -/
def load (disk : Text → Option Dir) (isDir : Text → Bool) (file : Text) (name : Text) (dir : Option Text) :
    Except LoadErr (Text × List Text) :=
  match dir with
  | some d => match findScenario (disk d) name with
    | .error e => .error e
    | .ok p => .ok (d, p)
  | none => match defaultDir isDir file with
    | .error e => .error e
    | .ok d => match findScenario (disk d) name with
      | .error e => .error e
      | .ok p => .ok (d, p)

/-! ## Specification -/

/-- `(n, d)` is one of the subdirectories. -/
def Dirs.Has (n : Text) (d : Dir) : Dirs → Prop
  | .nil => False
  | .cons m e rest => (n = m ∧ d = e) ∨ rest.Has n d

/-- The files in the tree, by their paths. -/
def Dir.HasFile : Dir → List Text → Text → Prop
  | .node files _, [], f => f ∈ files
  | .node _ subs, n :: p, f => ∃ d, subs.Has n d ∧ d.HasFile p f

/-! ## Proofs -/

theorem scanFiles_eq (name : Text) (root : List Text) (files : List Text) (found : Option (List Text)) :
    scanFiles name root files found = if name ∈ files then some (root ++ [name]) else found := by
  induction files with
  | nil => simp [scanFiles]
  | cons f fs ih =>
    simp only [scanFiles, ih, List.mem_cons]
    by_cases h : f = name
    · simp [h]
    · rw [if_neg h]
      by_cases h2 : name ∈ fs
      · simp [h2]
      · rw [if_neg h2, if_neg]
        rintro (e | e)
        · exact h e.symm
        · exact h2 e

/-- The search returns what it found before, or the file in some directory that it visits. -/
theorem scan_some (name : Text) (es : List (List Text × List Text)) (found : Option (List Text)) (p : List Text)
    (h : scan name es found = some p) : found = some p ∨ ∃ e ∈ es, name ∈ e.2 ∧ p = e.1 ++ [name] := by
  induction es generalizing found with
  | nil => exact .inl h
  | cons e es ih =>
    obtain ⟨root, files⟩ := e
    simp only [scan, scanFiles_eq] at h
    rcases ih _ h with h | ⟨e, h1, h2⟩
    · split at h
      · injection h with h
        exact .inr ⟨_, List.mem_cons_self, ‹_›, h.symm⟩
      · exact .inl h
    · exact .inr ⟨e, List.mem_cons_of_mem _ h1, h2⟩

theorem scan_none (name : Text) (es : List (List Text × List Text)) (found : Option (List Text))
    (h : scan name es found = none) : found = none ∧ ∀ e ∈ es, name ∉ e.2 := by
  induction es generalizing found with
  | nil => exact ⟨h, by simp⟩
  | cons e es ih =>
    obtain ⟨root, files⟩ := e
    simp only [scan, scanFiles_eq] at h
    obtain ⟨h1, h2⟩ := ih _ h
    split at h1
    · cases h1
    · refine ⟨h1, fun e he => ?_⟩
      rcases List.mem_cons.mp he with rfl | he
      · assumption
      · exact h2 e he

/-- The last directory wins. -/
theorem scan_last (name : Text) (es fs : List (List Text × List Text)) (root : List Text) (files : List Text)
    (found : Option (List Text)) (h : name ∈ files) (hf : ∀ e ∈ fs, name ∉ e.2) :
    scan name (es ++ (root, files) :: fs) found = some (root ++ [name]) := by
  induction es generalizing found with
  | nil =>
    simp only [List.nil_append, scan, scanFiles_eq, if_pos h]
    clear h
    generalize hx : some (root ++ [name]) = x
    clear hx
    induction fs with
    | nil => rfl
    | cons e fs ih =>
      obtain ⟨r, l⟩ := e
      simp only [scan, scanFiles_eq, if_neg (hf _ List.mem_cons_self)]
      exact ih fun e he => hf e (List.mem_cons_of_mem _ he)
  | cons e es ih =>
    obtain ⟨r, l⟩ := e
    simp only [List.cons_append, scan]
    exact ih _

mutual
theorem Dir.mem_walk (root : List Text) (d : Dir) (p : List Text) (f : Text) :
    (∃ e ∈ d.walk root, e.1 = root ++ p ∧ f ∈ e.2) ↔ d.HasFile p f := by
  match d with
  | .node files subs =>
    have ih := subs.mem_walk root p f
    cases p with
    | nil =>
      simp only [Dir.walk, List.mem_cons, Dir.HasFile]
      constructor
      · rintro ⟨e, rfl | he, h1, h2⟩
        · exact h2
        · exact absurd ((subs.mem_walk root [] f).mp ⟨e, he, h1, h2⟩) (by simp)
      · intro h
        exact ⟨_, .inl rfl, by simp, h⟩
    | cons n p =>
      simp only [Dir.walk, List.mem_cons, Dir.HasFile]
      constructor
      · rintro ⟨e, rfl | he, h1, h2⟩
        · simp at h1
        · obtain ⟨n', p', h3, d, h4⟩ := ih.mp ⟨e, he, h1, h2⟩
          injection h3 with h3 h5
          subst h3 h5
          exact ⟨d, h4⟩
      · rintro ⟨d, h⟩
        obtain ⟨e, h1, h2⟩ := ih.mpr ⟨n, p, rfl, d, h⟩
        exact ⟨e, .inr h1, h2⟩

theorem Dirs.mem_walk (root : List Text) (ds : Dirs) (p : List Text) (f : Text) :
    (∃ e ∈ ds.walk root, e.1 = root ++ p ∧ f ∈ e.2) ↔
      ∃ n q, p = n :: q ∧ ∃ d, ds.Has n d ∧ d.HasFile q f := by
  match ds with
  | .nil => simp [Dirs.walk, Dirs.Has]
  | .cons m d rest =>
    have ih := rest.mem_walk root p f
    simp only [Dirs.walk, List.mem_append, Dirs.Has]
    constructor
    · rintro ⟨e, he | he, h1, h2⟩
      · obtain ⟨q, hq⟩ := Dir.walk_under (root ++ [m]) d e he
        have h3 : p = m :: q := by
          rw [hq, List.append_assoc] at h1
          exact (List.append_cancel_left h1).symm
        refine ⟨m, q, h3, d, .inl ⟨rfl, rfl⟩, ?_⟩
        exact (d.mem_walk (root ++ [m]) q f).mp ⟨e, he, hq, h2⟩
      · obtain ⟨n, q, h3, d', h4, h5⟩ := ih.mp ⟨e, he, h1, h2⟩
        exact ⟨n, q, h3, d', .inr h4, h5⟩
    · rintro ⟨n, q, rfl, d', ⟨rfl, rfl⟩ | h4, h5⟩
      · obtain ⟨e, h1, h2, h3⟩ := (d'.mem_walk (root ++ [n]) q f).mpr h5
        exact ⟨e, .inl h1, by rw [h2]; simp, h3⟩
      · obtain ⟨e, h1, h2⟩ := ih.mpr ⟨n, q, rfl, d', h4, h5⟩
        exact ⟨e, .inr h1, h2⟩

theorem Dir.walk_under (root : List Text) (d : Dir) : ∀ e ∈ d.walk root, ∃ q, e.1 = root ++ q := by
  match d with
  | .node files subs =>
    intro e he
    simp only [Dir.walk, List.mem_cons] at he
    rcases he with rfl | he
    · exact ⟨[], by simp⟩
    · obtain ⟨q, hq, -⟩ := subs.walk_under root e he
      exact ⟨q, hq⟩

theorem Dirs.walk_under (root : List Text) (ds : Dirs) : ∀ e ∈ ds.walk root, ∃ q, e.1 = root ++ q ∧ q ≠ [] := by
  match ds with
  | .nil => simp [Dirs.walk]
  | .cons m d rest =>
    intro e he
    simp only [Dirs.walk, List.mem_append] at he
    rcases he with he | he
    · obtain ⟨q, hq⟩ := d.walk_under (root ++ [m]) e he
      exact ⟨m :: q, by rw [hq]; simp, by simp⟩
    · exact rest.walk_under root e he
end

/-- **C127.** The file that is opened is in the tree and has the name asked for. -/
theorem C127_found (d : Dir) (name : Text) (p : List Text) (h : findScenario (some d) name = .ok p) :
    ∃ q, p = q ++ [withXml name] ∧ d.HasFile q (withXml name) := by
  simp only [findScenario] at h
  split at h
  · cases h
  · rename_i p' hp
    injection h with h
    subst h
    rcases scan_some _ _ _ _ hp with h | ⟨e, h1, h2, h3⟩
    · cases h
    · exact ⟨e.1, h3, (d.mem_walk [] e.1 _).mp ⟨e, h1, by simp, h2⟩⟩

/-- **C127.** `FileNotFoundError` is raised exactly if there is no such file. -/
theorem C127_missing (d : Dir) (name : Text) :
    findScenario (some d) name = .error .notFound ↔ ∀ q, ¬ d.HasFile q (withXml name) := by
  constructor
  · intro h q hq
    simp only [findScenario] at h
    split at h
    · rename_i hs
      obtain ⟨e, h1, -, h2⟩ := (d.mem_walk [] q _).mpr hq
      exact (scan_none _ _ _ hs).2 e h1 h2
    · cases h
  · intro h
    simp only [findScenario]
    split
    · rfl
    · rename_i p hp
      rcases scan_some _ _ _ _ hp with h' | ⟨e, h1, h2, -⟩
      · cases h'
      · exact absurd ((d.mem_walk [] e.1 _).mp ⟨e, h1, by simp, h2⟩) (h _)

/-- **C127.** A file is opened if it is the only one of its name. -/
theorem C127_unique_partial (d : Dir) (name : Text) (q : List Text) (h : d.HasFile q (withXml name))
    (hu : ∀ q', d.HasFile q' (withXml name) → q' = q) :
    findScenario (some d) name = .ok (q ++ [withXml name]) := by
  cases hf : findScenario (some d) name with
  | error e =>
    cases e with
    | notFound => exact absurd h ((C127_missing d name).mp hf q)
    | assertion =>
      simp only [findScenario] at hf
      split at hf <;> cases hf
  | ok p =>
    obtain ⟨q', rfl, h2⟩ := C127_found d name p hf
    rw [hu q' h2]

/-- **C127 fails.** If the directory itself contains the file, and some directory within it contains another one of this
name, the one in the directory itself is never opened. -/
theorem C127_false_top (files : List Text) (subs : Dirs) (name : Text) (n : Text) (q : List Text)
    (h : (Dir.node files subs).HasFile (n :: q) (withXml name)) :
    ∃ n' q', findScenario (some (.node files subs)) name = .ok (n' :: q' ++ [withXml name]) := by
  obtain ⟨e, h1, h2, h3⟩ := ((Dir.node files subs).mem_walk [] (n :: q) _).mpr h
  simp only [Dir.walk, List.mem_cons] at h1
  have h1 : e ∈ subs.walk [] := by
    rcases h1 with rfl | h1
    · simp at h2
    · exact h1
  have key : ∀ found, ∃ n' q', scan (withXml name) (subs.walk []) found = some (n' :: q' ++ [withXml name]) := by
    intro found
    cases hs : scan (withXml name) (subs.walk []) found with
    | none => exact absurd h3 ((scan_none _ _ _ hs).2 e h1)
    | some p =>
      -- a file found in a subdirectory replaces what was found before
      obtain ⟨as, bs, hab⟩ := List.append_of_mem h1
      by_cases hlast : ∃ a ∈ subs.walk [], withXml name ∈ a.2 ∧ p = a.1 ++ [withXml name]
      · obtain ⟨a, g1, -, g3⟩ := hlast
        obtain ⟨r, g4, g5⟩ := subs.walk_under [] a g1
        cases r with
        | nil => exact absurd rfl g5
        | cons x xs => exact ⟨x, xs, by rw [g3, g4]; simp⟩
      · exfalso
        have : ∀ (es : List (List Text × List Text)) found, (∃ a ∈ es, withXml name ∈ a.2) →
            ∀ p, scan (withXml name) es found = some p → ∃ a ∈ es, withXml name ∈ a.2 ∧ p = a.1 ++ [withXml name] := by
          intro es
          induction es with
          | nil => rintro _ ⟨a, ha, -⟩; cases ha
          | cons a es ih =>
            obtain ⟨r, l⟩ := a
            intro found _ p hp
            simp only [scan, scanFiles_eq] at hp
            by_cases hes : ∃ a ∈ es, withXml name ∈ a.2
            · obtain ⟨a, g1, g2⟩ := ih _ hes p hp
              exact ⟨a, List.mem_cons_of_mem _ g1, g2⟩
            · rcases scan_some _ _ _ _ hp with g | ⟨a, g1, g2, -⟩
              · rename_i hex
                obtain ⟨a, g1, g2⟩ := hex
                rcases List.mem_cons.mp g1 with rfl | g1
                · rw [if_pos g2] at g
                  injection g with g
                  exact ⟨_, List.mem_cons_self, g2, g.symm⟩
                · exact absurd ⟨a, g1, g2⟩ hes
              · exact absurd ⟨a, g1, g2⟩ hes
        exact hlast (this _ _ ⟨e, h1, h3⟩ p hs)
  simp only [findScenario, Dir.walk, scan]
  obtain ⟨n', q', hk⟩ := key (scanFiles (withXml name) [] files none)
  rw [hk]
  exact ⟨n', q', rfl⟩

/-- **C127.** The ending may be left out. -/
theorem C127_ending (dir : Option Dir) (name : Text) (h : ¬ ".xml".toList <:+ name) :
    findScenario dir name = findScenario dir (name ++ ".xml".toList) := by
  have h1 : withXml name = name ++ ".xml".toList := if_neg h
  have h2 : withXml (name ++ ".xml".toList) = name ++ ".xml".toList := if_pos (List.suffix_append _ _)
  simp only [findScenario, h1, h2]

/-- The text in front of the first occurrence. -/
theorem before_append (pat a b : Text) (h : ∀ x y, x ++ y = a → y ≠ [] → ¬ pat <+: y ++ b) (hb : pat <+: b) :
    before pat (a ++ b) = a := by
  induction a with
  | nil =>
    cases b with
    | nil => rfl
    | cons c cs => simp [before, hb]
  | cons c cs ih =>
    have h1 := h [] (c :: cs) rfl (by simp)
    rw [List.cons_append] at h1 ⊢
    rw [before, if_neg h1, ih fun x y hxy hy => h (c :: x) y (by simp [hxy]) hy]

theorem before_length (pat a b c : Text) : (before pat (a ++ (pat ++ b) ++ c)).length ≤ a.length := by
  induction a with
  | nil =>
    simp only [List.nil_append, List.length_nil, Nat.le_zero, List.length_eq_zero_iff]
    cases hp : pat ++ b ++ c with
    | nil => rfl
    | cons x xs =>
      rw [before, if_pos]
      rw [← hp, List.append_assoc]
      exact List.prefix_append _ _
  | cons x xs ih =>
    simp only [List.cons_append, before]
    split
    · simp
    · simpa using ih

/-- The part of the path of utils.py within `src`. -/
def inSrc : Text := "/dg_commons/sim/scenarios/utils.py".toList

/-- The part of the path of utils.py within a checkout of the project. -/
def inProject : Text := '/' :: ("src".toList ++ inSrc)

/-- **C127.** In a checkout of the project the `scenarios` folder next to `src` is searched, if there is no "src" in the
path of the checkout. -/
theorem C127_default_partial (isDir : Text → Bool) (root : Text) (hs : ¬ "src".toList <:+: root)
    (hd : isDir (root ++ ['/']) = true) :
    defaultDir isDir (root ++ inProject) = .ok (root ++ "/scenarios".toList) := by
  have hb : before "src".toList (root ++ inProject) = root ++ ['/'] := by
    have e : root ++ inProject = (root ++ ['/']) ++ ("src".toList ++ inSrc) := by
      rw [List.append_assoc]
      rfl
    rw [e]
    refine before_append _ _ _ (fun x y hxy hy hp => ?_) (List.prefix_append _ _)
    -- an occurrence that begins within `root ++ "/"` would contain the slash
    obtain ⟨z, rfl⟩ : ∃ z, y = z ++ ['/'] := by
      obtain ⟨z, c, rfl⟩ := List.eq_nil_or_concat y |>.resolve_left hy
      refine ⟨z, ?_⟩
      have := congrArg List.getLast? hxy
      simp [List.concat_eq_append] at this
      simp [this]
    have hx : x ++ z = root := by
      rw [← List.append_assoc] at hxy
      exact (List.append_inj' hxy rfl).1
    apply hs
    have h3 : "src".toList <+: z := by
      match z, hp with
      | [], hp =>
        exfalso
        obtain ⟨w, hw⟩ := hp
        simp at hw
      | [a], hp =>
        exfalso
        obtain ⟨w, hw⟩ := hp
        simp at hw
      | [a, b], hp =>
        exfalso
        obtain ⟨w, hw⟩ := hp
        simp at hw
      | a :: b :: c :: l, hp =>
        obtain ⟨w, hw⟩ := hp
        simp at hw
        obtain ⟨rfl, rfl, rfl, -⟩ := hw
        exact ⟨l, rfl⟩
    rw [← hx]
    exact h3.isInfix.trans (List.suffix_append x z).isInfix
  have hin : "src".toList <:+: root ++ inProject :=
    (show "src".toList <:+: inProject from ⟨['/'], inSrc, rfl⟩).trans (List.suffix_append _ _).isInfix
  simp only [defaultDir, not_not.mpr hin, if_false, hb, hd, if_true, join]
  simp

/-- **C127 fails.** With "src" in the path of the checkout the `scenarios` folder of the project is not searched. -/
theorem C127_false_default (isDir : Text → Bool) (root : Text) (hs : "src".toList <:+: root) :
    defaultDir isDir (root ++ inProject) ≠ .ok (root ++ "/scenarios".toList) := by
  obtain ⟨a, b, rfl⟩ := hs
  intro h
  simp only [defaultDir] at h
  split at h
  · cases h
  · split at h
    · injection h with h
      have h1 := congrArg List.length h
      have h2 := before_length "src".toList a b inProject
      rw [← List.append_assoc] at h2
      generalize before "src".toList (a ++ "src".toList ++ b ++ inProject) = r at h1 h2
      unfold join at h1
      split at h1 <;> simp at h1 <;> omega
    · cases h

/-- **C127.** Without "src" in its path, as in an installed package, the function raises without a directory. -/
theorem C127_installed (disk : Text → Option Dir) (isDir : Text → Bool) (file name : Text)
    (hs : ¬ "src".toList <:+: file) : load disk isDir file name none = .error .assertion := by
  unfold load defaultDir
  rw [if_pos hs]

/-- **C127.** What `load_commonroad_scenario` opens is in the directory that it is given, or else in the default one, and has the
name asked for. -/
theorem C127_directory (disk : Text → Option Dir) (isDir : Text → Bool) (file name : Text) (dir : Option Text) (d : Text)
    (p : List Text) (h : load disk isDir file name dir = .ok (d, p)) :
    (∀ d', dir = some d' → d = d') ∧ (dir = none → defaultDir isDir file = .ok d) ∧
      ∃ t q, disk d = some t ∧ p = q ++ [withXml name] ∧ t.HasFile q (withXml name) := by
  have key : ∀ d, findScenario (disk d) name = .ok p →
      ∃ t q, disk d = some t ∧ p = q ++ [withXml name] ∧ t.HasFile q (withXml name) := by
    intro d hf
    cases ht : disk d with
    | none => rw [ht] at hf; cases hf
    | some t =>
      rw [ht] at hf
      obtain ⟨q, h1, h2⟩ := C127_found t name p hf
      exact ⟨t, q, rfl, h1, h2⟩
  unfold load at h
  cases dir with
  | some d' =>
    simp only at h
    cases hf : findScenario (disk d') name with
    | error e => rw [hf] at h; cases h
    | ok p' =>
      rw [hf] at h
      injection h with h
      injection h with h1 h2
      subst h1 h2
      exact ⟨fun _ e => by injection e, (nomatch ·), key _ hf⟩
  | none =>
    simp only at h
    cases hd : defaultDir isDir file with
    | error e => rw [hd] at h; cases h
    | ok d' =>
      rw [hd] at h
      simp only at h
      cases hf : findScenario (disk d') name with
      | error e => rw [hf] at h; cases h
      | ok p' =>
        rw [hf] at h
        injection h with h
        injection h with h1 h2
        subst h1 h2
        exact ⟨fun _ e => (nomatch e), fun _ => rfl, key _ hf⟩

/-! ## Examples -/

/-- `b.xml` in two places. -/
def tree : Dir := .node ["a.xml".toList, "b.xml".toList]
  (.cons "old".toList (.node ["b.xml".toList] .nil) (.cons "new".toList (.node ["c.xml".toList] .nil) .nil))

example : findScenario (some tree) "a".toList = .ok ["a.xml".toList] ∧
    findScenario (some tree) "c.xml".toList = .ok ["new".toList, "c.xml".toList] ∧
    findScenario (some tree) "b".toList = .ok ["old".toList, "b.xml".toList] ∧
    findScenario (some tree) "d".toList = .error .notFound ∧ findScenario none "a".toList = .error .notFound := by
  decide +kernel

example : tree.HasFile [] "b.xml".toList ∧ tree.HasFile ["old".toList] "b.xml".toList := by
  refine ⟨by simp [tree, Dir.HasFile], ⟨_, .inl ⟨rfl, rfl⟩, by simp [Dir.HasFile]⟩⟩

/-- The only file of its name. -/
example : ∀ q, tree.HasFile q "c.xml".toList → q = ["new".toList] := by
  intro q hq
  match q, hq with
  | [], h => simp [tree, Dir.HasFile] at h
  | [n], h =>
    obtain ⟨d, ⟨rfl, rfl⟩ | ⟨rfl, rfl⟩ | h1, h2⟩ := h
    · simp [Dir.HasFile] at h2
    · rfl
    · exact h1.elim
  | n :: m :: l, h =>
    obtain ⟨d, ⟨rfl, rfl⟩ | ⟨rfl, rfl⟩ | h1, h2⟩ := h
    · obtain ⟨_, h3, -⟩ := h2; exact h3.elim
    · obtain ⟨_, h3, -⟩ := h2; exact h3.elim
    · exact h1.elim

example : load (fun d => if d = "/data".toList then some tree else none) (fun _ => true) [] "c".toList (some "/data".toList) =
    .ok ("/data".toList, ["new".toList, "c.xml".toList]) := by
  decide +kernel

example : defaultDir (fun d => d = "/home/me/dg-commons/".toList)
      ("/home/me/dg-commons".toList ++ inProject) = .ok "/home/me/dg-commons/scenarios".toList ∧
    defaultDir (fun d => d = "/usr/".toList) ("/usr/src/dg-commons".toList ++ inProject) = .ok "/usr/scenarios".toList ∧
    defaultDir (fun d => d = "/usr/".toList) ("/home/me/mysrc/app".toList ++ inProject) = .error .assertion ∧
    defaultDir (fun _ => true) "/usr/lib/python3/site-packages/dg_commons/sim/scenarios/utils.py".toList =
      .error .assertion := by
  decide +kernel

end Load
end Verif
