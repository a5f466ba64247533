/-
The parts of a page: where they are shown, and which objects they are stored in.
-/
import Verif.Spec.Document
import Verif.Spec.Reach

namespace OneNote.Spec.Places

open Document Objects Reach

/-- One step towards a part of a page. The number counts from 0. -/
inductive PlaceStep where
  /-- A content of the page. -/
  | page (i : Nat)
  /-- An outline of the title. -/
  | title (i : Nat)
  /-- An item of an outline, of a group of items or under another item. -/
  | item (i : Nat)
  /-- A content of an item. -/
  | content (i : Nat)
  /-- A row of a table. -/
  | row (i : Nat)
  /-- A cell of a row. -/
  | cell (i : Nat)
  /-- An item in a cell. -/
  | element (i : Nat)
  deriving DecidableEq

/-- The steps are of the same kind. -/
def PlaceStep.like : PlaceStep → PlaceStep → Prop
  | .page _, .page _ | .title _, .title _ | .item _, .item _ | .content _, .content _ | .row _, .row _
  | .cell _, .cell _ | .element _, .element _ => True
  | _, _ => False

/-- A place on a page: the steps to it, the last one first. -/
abbrev Place := List PlaceStep

/-- The last steps to the two places are of the same kind. -/
def SameSort : Place → Place → Prop
  | k :: _, k' :: _ => k.like k'
  | _, _ => False

/-- Something a page shows. -/
inductive Part where
  | page (c : PageContent)
  | outline (o : Outline)
  | item (x : OutlineItem)
  | content (c : Content)
  | row (r : TableRow)
  | cell (c : TableCell)

/-- The page shows the part at the place. -/
inductive On (p : Page) : Place → Part → Prop where
  | page {i c} : p.contents[i]? = some c → On p [.page i] (.page c)
  | title {t i o} : p.title = some t → t.contents[i]? = some o → On p [.title i] (.outline o)
  | pageItem {pl o i x} : On p pl (.page (.outline o)) → o.items[i]? = some x →
      On p (.item i :: pl) (.item x)
  | titleItem {pl o i x} : On p pl (.outline o) → o.items[i]? = some x → On p (.item i :: pl) (.item x)
  | groupItem {pl g i x} : On p pl (.item (.group g)) → g.outlines[i]? = some x →
      On p (.item i :: pl) (.item x)
  | childItem {pl e i x} : On p pl (.item (.element e)) → e.children[i]? = some x →
      On p (.item i :: pl) (.item x)
  | content {pl e i c} : On p pl (.item (.element e)) → e.contents[i]? = some c →
      On p (.content i :: pl) (.content c)
  | row {pl t i r} : On p pl (.content (.table t)) → t.contents[i]? = some r →
      On p (.row i :: pl) (.row r)
  | cell {pl r i c} : On p pl (.row r) → r.contents[i]? = some c → On p (.cell i :: pl) (.cell c)
  | element {pl c i e} : On p pl (.cell c) → c.contents[i]? = some e →
      On p (.element i :: pl) (.item (.element e))

/-- What is at the place is stored in the object `id`. -/
inductive StoredAt (s : ObjectSpace) : Place → ExGuid → Prop where
  | page {root k page o n i id} : s.roots.get? .defaultContent = some root → At s root k → IsPageManifest k page →
      At s page o → IsPageNode o n → n.content[i]? = some id → StoredAt s [.page i] id
  | title {root k page o n t o' n' i id} : s.roots.get? .defaultContent = some root → At s root k →
      IsPageManifest k page → At s page o → IsPageNode o n → n.title = some t → At s t o' →
      IsTitleNode o' n' → n'.children[i]? = some id → StoredAt s [.title i] id
  | pageItem {j pl id o n i x} : StoredAt s (.page j :: pl) id → At s id o → IsOutlineNode o n →
      n.children[i]? = some x → StoredAt s (.item i :: .page j :: pl) x
  | titleItem {j pl id o n i x} : StoredAt s (.title j :: pl) id → At s id o → IsOutlineNode o n →
      n.children[i]? = some x → StoredAt s (.item i :: .title j :: pl) x
  | groupItem {j pl id o n i x} : StoredAt s (.item j :: pl) id → At s id o → IsOutlineGroupNode o n →
      n.children[i]? = some x → StoredAt s (.item i :: .item j :: pl) x
  | childItem {k pl id o n i x} : StoredAt s (k :: pl) id → (∃ j, k = .item j ∨ k = .element j) →
      At s id o → IsOutlineElementNode o n → n.children[i]? = some x → StoredAt s (.item i :: k :: pl) x
  | content {k pl id o n i x} : StoredAt s (k :: pl) id → (∃ j, k = .item j ∨ k = .element j) →
      At s id o → IsOutlineElementNode o n → n.contents[i]? = some x → StoredAt s (.content i :: k :: pl) x
  | row {j pl id o n i x} : StoredAt s (.content j :: pl) id → At s id o → IsTableNode o n →
      n.rows[i]? = some x → StoredAt s (.row i :: .content j :: pl) x
  | cell {j pl id o n i x} : StoredAt s (.row j :: pl) id → At s id o → IsTableRowNode o n →
      n.cells[i]? = some x → StoredAt s (.cell i :: .row j :: pl) x
  | element {j pl id o n i x} : StoredAt s (.cell j :: pl) id → At s id o → IsTableCellNode o n →
      n.contents[i]? = some x → StoredAt s (.element i :: .cell j :: pl) x

/-- `x` is `id` or can be got to from it by following references. -/
inductive From (s : ObjectSpace) (id : ExGuid) : ExGuid → Prop where
  | self : From s id id
  | step {x o next} : From s id x → s.getObject x = some o → RefersTo o next → From s id next

/-- The spaces have the same object `id`, and the same objects that can be got to from it. They may
differ in all others. -/
def SameFrom (s s' : ObjectSpace) (id : ExGuid) : Prop :=
  ∀ x, From s id x → s.getObject x = s'.getObject x

/-- Only the objects of `edited` differ, and the roots do not. -/
structure EditedOnly (edited : ExGuid → Prop) (s s' : ObjectSpace) : Prop where
  contentRoot : s.roots.get? .defaultContent = s'.roots.get? .defaultContent
  objects : ∀ id, ¬ edited id → s.getObject id = s'.getObject id

/-- The objects above a place: the root and the page, the title for places in it, and what is stored for
the places on the way. -/
inductive Above (s : ObjectSpace) (pl : Place) : ExGuid → Prop where
  | root {root} : s.roots.get? .defaultContent = some root → Above s pl root
  | page {root k page} : s.roots.get? .defaultContent = some root → At s root k → IsPageManifest k page →
      Above s pl page
  | title {root k page o n t i} : pl.getLast? = some (.title i) → s.roots.get? .defaultContent = some root →
      At s root k → IsPageManifest k page → At s page o → IsPageNode o n → n.title = some t →
      Above s pl t
  | way {steps way id} : pl = steps ++ way → steps ≠ [] → StoredAt s way id → Above s pl id

end OneNote.Spec.Places
