/-
[MS-ONESTORE] 2.8.1: the schemas of the two kinds of files.
-/
import Verif.Model.Container

namespace OneNote.Spec

/-- `{1F937CB4-B26F-445F-B9F8-17E20160E461}`: the schema of section files. -/
def sectionGuid : Guid :=
  ⟨0x1F, 0x93, 0x7C, 0xB4, 0xB2, 0x6F, 0x44, 0x5F, 0xB9, 0xF8, 0x17, 0xE2, 0x01, 0x60, 0xE4, 0x61⟩

/-- `{E4DBFD38-E5C7-408B-A8A1-0E7B421E1F5F}`: the schema of table-of-contents files. -/
def tocGuid : Guid :=
  ⟨0xE4, 0xDB, 0xFD, 0x38, 0xE5, 0xC7, 0x40, 0x8B, 0xA8, 0xA1, 0x0E, 0x7B, 0x42, 0x1E, 0x1F, 0x5F⟩

/-- `HasSchema data schema`: the file's data elements contain a storage manifest with that schema. -/
def HasSchema (data : Bytes) (schema : Guid) : Prop :=
  ∃ packaging rest key manifest, Packaging.parse data = .ok (packaging, rest) ∧
    (key, manifest) ∈ packaging.package.storageManifests ∧ manifest.id = schema

end OneNote.Spec
