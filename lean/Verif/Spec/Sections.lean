/-
The sections of a notebook, also those in its section groups.
-/
import Verif.Model.Notebook

namespace OneNote.Spec

/-- The section is one of the entries or in one of the groups among them. -/
inductive Among (s : Section) : List SectionEntry → Prop where
  | entry {es : List SectionEntry} : .section s ∈ es → Among s es
  | group {es : List SectionEntry} {g : SectionGroup} : .sectionGroup g ∈ es → Among s g.entries → Among s es


/-- The section group is one of the entries or in one of the groups among them. -/
inductive GroupAmong (g : SectionGroup) : List SectionEntry → Prop where
  | entry {es : List SectionEntry} : .sectionGroup g ∈ es → GroupAmong g es
  | group {es : List SectionEntry} {g' : SectionGroup} :
      .sectionGroup g' ∈ es → GroupAmong g g'.entries → GroupAmong g es

end OneNote.Spec
