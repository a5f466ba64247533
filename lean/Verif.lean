import Verif.Model.Basic
import Verif.Model.Checked
import Verif.Model.Cli
import Verif.Model.Container
import Verif.Model.Counted
import Verif.Model.Data
import Verif.Model.Document
import Verif.Model.Float
import Verif.Model.GuidText
import Verif.Model.Map
import Verif.Model.Messages
import Verif.Model.MultiByte
import Verif.Model.Narrow
import Verif.Model.Nodes
import Verif.Model.NoteTagShape
import Verif.Model.Notebook
import Verif.Model.Outline
import Verif.Model.Path
import Verif.Model.PropSet
import Verif.Model.Property
import Verif.Model.PropertyType
import Verif.Model.References
import Verif.Model.Section
import Verif.Model.Store
import Verif.Model.Text
import Verif.Model.Timed
import Verif.Model.Windows
import Verif.Spec.Accepted
import Verif.Spec.Amount
import Verif.Spec.Arithmetic
import Verif.Spec.Arrange
import Verif.Spec.Container
import Verif.Spec.Declared
import Verif.Spec.Deleted
import Verif.Spec.Determinism
import Verif.Spec.Document
import Verif.Spec.Drawing
import Verif.Spec.Each
import Verif.Spec.Edited
import Verif.Spec.Encode
import Verif.Spec.Entries
import Verif.Spec.Fields
import Verif.Spec.FileName
import Verif.Spec.FileNames
import Verif.Spec.Float
import Verif.Spec.Folder
import Verif.Spec.FormulaRuns
import Verif.Spec.Fragment
import Verif.Spec.Graph
import Verif.Spec.GuidText
import Verif.Spec.History
import Verif.Spec.Ink
import Verif.Spec.Isolation
import Verif.Spec.Kinds
import Verif.Spec.Layout
import Verif.Spec.ListFormat
import Verif.Spec.Located
import Verif.Spec.Loop
import Verif.Spec.Memory
import Verif.Spec.Moved
import Verif.Spec.MultiByte
import Verif.Spec.Named
import Verif.Spec.Nesting
import Verif.Spec.NoteTag
import Verif.Spec.Objects
import Verif.Spec.Once
import Verif.Spec.PageHistory
import Verif.Spec.PageLevel
import Verif.Spec.PageList
import Verif.Spec.Paragraph
import Verif.Spec.Parts
import Verif.Spec.Path
import Verif.Spec.Places
import Verif.Spec.Prefix
import Verif.Spec.PropSet
import Verif.Spec.Reach
import Verif.Spec.ReachCycle
import Verif.Spec.Rearranged
import Verif.Spec.RecycleBin
import Verif.Spec.References
import Verif.Spec.Rejected
import Verif.Spec.Rename
import Verif.Spec.Resaved
import Verif.Spec.Revised
import Verif.Spec.Revisions
import Verif.Spec.Runs
import Verif.Spec.SameDir
import Verif.Spec.SameProperties
import Verif.Spec.Sample
import Verif.Spec.SampleDocument
import Verif.Spec.SampleDrawing
import Verif.Spec.SampleFile
import Verif.Spec.SampleObject
import Verif.Spec.SampleStore
import Verif.Spec.SampleToc
import Verif.Spec.Schema
import Verif.Spec.SectionName
import Verif.Spec.Sections
import Verif.Spec.Shown
import Verif.Spec.Size
import Verif.Spec.Storable
import Verif.Spec.Store
import Verif.Spec.StoreContents
import Verif.Spec.Tables
import Verif.Spec.Tags
import Verif.Spec.Terminates
import Verif.Spec.Timed
import Verif.Spec.Title
import Verif.Spec.Toc
import Verif.Spec.Tree
import Verif.Spec.Unlisted
import Verif.Spec.Utf16
import Verif.Spec.Values
import Verif.Spec.Whole
import Verif.Spec.Windows
import Verif.Spec.WindowsSpelling
import Verif.Spec.Words
import Verif.Spec.Write
import Verif.Spec.WriteDocument
import Verif.Spec.WriteNode
import Verif.Spec.WriteToc
import Verif.Spec.WriteTree
import Verif.Lemmas.Accept
import Verif.Lemmas.Amount
import Verif.Lemmas.AnyOrder
import Verif.Lemmas.Arrange
import Verif.Lemmas.Avoid
import Verif.Lemmas.Basic
import Verif.Lemmas.Bits
import Verif.Lemmas.Bounded
import Verif.Lemmas.BoundedDocument
import Verif.Lemmas.Checked
import Verif.Lemmas.Container
import Verif.Lemmas.Contents
import Verif.Lemmas.Copies
import Verif.Lemmas.Data
import Verif.Lemmas.Deleted
import Verif.Lemmas.DeletedSample
import Verif.Lemmas.Determinism
import Verif.Lemmas.Doubling
import Verif.Lemmas.Edited
import Verif.Lemmas.Entries
import Verif.Lemmas.Fields
import Verif.Lemmas.Fine
import Verif.Lemmas.Float
import Verif.Lemmas.Folder
import Verif.Lemmas.Follow
import Verif.Lemmas.Fuel
import Verif.Lemmas.Good
import Verif.Lemmas.GuidText
import Verif.Lemmas.Header
import Verif.Lemmas.History
import Verif.Lemmas.Ink
import Verif.Lemmas.InkFloat
import Verif.Lemmas.Kinds
import Verif.Lemmas.KindsDocument
import Verif.Lemmas.Leaves
import Verif.Lemmas.ListFormat
import Verif.Lemmas.Located
import Verif.Lemmas.Lookup
import Verif.Lemmas.Map
import Verif.Lemmas.MapM
import Verif.Lemmas.MappingTable
import Verif.Lemmas.Moved
import Verif.Lemmas.MovedObjects
import Verif.Lemmas.MultiByte
import Verif.Lemmas.Narrow
import Verif.Lemmas.Nesting
import Verif.Lemmas.Node
import Verif.Lemmas.Nodes
import Verif.Lemmas.NoteTag
import Verif.Lemmas.Objects
import Verif.Lemmas.Objects2
import Verif.Lemmas.Once
import Verif.Lemmas.PageHistory
import Verif.Lemmas.PageList
import Verif.Lemmas.Path
import Verif.Lemmas.Placed
import Verif.Lemmas.PlainSamples
import Verif.Lemmas.PropSet
import Verif.Lemmas.PropSetGood
import Verif.Lemmas.Pruned
import Verif.Lemmas.Reach
import Verif.Lemmas.ReadBack
import Verif.Lemmas.Readings
import Verif.Lemmas.Readings2
import Verif.Lemmas.Readings3
import Verif.Lemmas.Rearranged
import Verif.Lemmas.References
import Verif.Lemmas.Refs
import Verif.Lemmas.Reject
import Verif.Lemmas.Rejected
import Verif.Lemmas.Rename
import Verif.Lemmas.RenameDocument
import Verif.Lemmas.RenameObjects
import Verif.Lemmas.Repeated
import Verif.Lemmas.Resaved
import Verif.Lemmas.Revised
import Verif.Lemmas.Revisions
import Verif.Lemmas.SameDir
import Verif.Lemmas.SameDocument
import Verif.Lemmas.SameFiles
import Verif.Lemmas.SameObjects
import Verif.Lemmas.SameProperties
import Verif.Lemmas.SameSpace
import Verif.Lemmas.SameStore
import Verif.Lemmas.Sample
import Verif.Lemmas.SampleDocument
import Verif.Lemmas.SampleEdit
import Verif.Lemmas.Shown
import Verif.Lemmas.Size
import Verif.Lemmas.Steps
import Verif.Lemmas.Store
import Verif.Lemmas.StoreContents
import Verif.Lemmas.StorePanic
import Verif.Lemmas.Terminates
import Verif.Lemmas.Timed
import Verif.Lemmas.Title
import Verif.Lemmas.Toc
import Verif.Lemmas.Tree
import Verif.Lemmas.TrimEnd
import Verif.Lemmas.Unshared
import Verif.Lemmas.Utf16
import Verif.Lemmas.Visit
import Verif.Lemmas.Whole
import Verif.Lemmas.WholeNotebook
import Verif.Lemmas.Windows
import Verif.Lemmas.WindowsNotebook
import Verif.Lemmas.WindowsSpelling
import Verif.Lemmas.Write
import Verif.Lemmas.WriteDocument
import Verif.Lemmas.WriteFields
import Verif.Lemmas.WriteFile
import Verif.Lemmas.WriteFits
import Verif.Lemmas.WriteInk
import Verif.Lemmas.WriteLength
import Verif.Lemmas.WriteNode
import Verif.Lemmas.WriteObject
import Verif.Lemmas.WriteOutline
import Verif.Lemmas.WriteSection
import Verif.Lemmas.WriteStore
import Verif.Lemmas.WriteText
import Verif.Lemmas.WriteToc
import Verif.Lemmas.WriteValues
import Verif.Lemmas.Written
import Verif.Lemmas.Yields
import Verif.Props.C01
import Verif.Props.C02
import Verif.Props.C03
import Verif.Props.C04
import Verif.Props.C05
import Verif.Props.C06
import Verif.Props.C07
import Verif.Props.C08
import Verif.Props.C09
import Verif.Props.C10
import Verif.Props.C100
import Verif.Props.C101
import Verif.Props.C102
import Verif.Props.C103
import Verif.Props.C11
import Verif.Props.C12
import Verif.Props.C13
import Verif.Props.C14
import Verif.Props.C15
import Verif.Props.C16
import Verif.Props.C17
import Verif.Props.C18
import Verif.Props.C19
import Verif.Props.C20
import Verif.Props.C21
import Verif.Props.C22
import Verif.Props.C23
import Verif.Props.C24
import Verif.Props.C25
import Verif.Props.C26
import Verif.Props.C27
import Verif.Props.C28
import Verif.Props.C29
import Verif.Props.C30
import Verif.Props.C31
import Verif.Props.C32
import Verif.Props.C33
import Verif.Props.C34
import Verif.Props.C35
import Verif.Props.C36
import Verif.Props.C37
import Verif.Props.C38
import Verif.Props.C39
import Verif.Props.C40
import Verif.Props.C41
import Verif.Props.C42
import Verif.Props.C43
import Verif.Props.C44
import Verif.Props.C45
import Verif.Props.C46
import Verif.Props.C47
import Verif.Props.C48
import Verif.Props.C49
import Verif.Props.C50
import Verif.Props.C51
import Verif.Props.C52
import Verif.Props.C53
import Verif.Props.C54
import Verif.Props.C55
import Verif.Props.C56
import Verif.Props.C57
import Verif.Props.C58
import Verif.Props.C59
import Verif.Props.C60
import Verif.Props.C61
import Verif.Props.C62
import Verif.Props.C63
import Verif.Props.C64
import Verif.Props.C65
import Verif.Props.C66
import Verif.Props.C67
import Verif.Props.C68
import Verif.Props.C69
import Verif.Props.C70
import Verif.Props.C71
import Verif.Props.C72
import Verif.Props.C73
import Verif.Props.C74
import Verif.Props.C75
import Verif.Props.C76
import Verif.Props.C77
import Verif.Props.C78
import Verif.Props.C79
import Verif.Props.C80
import Verif.Props.C81
import Verif.Props.C82
import Verif.Props.C83
import Verif.Props.C84
import Verif.Props.C85
import Verif.Props.C86
import Verif.Props.C87
import Verif.Props.C88
import Verif.Props.C89
import Verif.Props.C90
import Verif.Props.C91
import Verif.Props.C92
import Verif.Props.C93
import Verif.Props.C94
import Verif.Props.C95
import Verif.Props.C96
import Verif.Props.C97
import Verif.Props.C98
import Verif.Props.C99
