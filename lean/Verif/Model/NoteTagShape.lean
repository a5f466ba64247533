/-
The shapes of note tag icons.

Models /repo/src/one/property/note_tag_shape.rs.
-/
import Verif.Model.Basic

namespace OneNote

/-- `NoteTagShape`, /repo/src/one/property/note_tag_shape.rs L10-155. -/
inductive NoteTagShape where
  | noIcon
  | greenCheckBox
  | yellowCheckBox
  | blueCheckBox
  | greenStarCheckBox
  | yellowStarCheckBox
  | blueStarCheckBox
  | greenExclamationCheckBox
  | yellowExclamationCheckBox
  | blueExclamationCheckBox
  | greenRightArrowCheckBox
  | yellowRightArrowCheckBox
  | blueRightArrowCheckBox
  | yellowStar
  | blueFollowUpFlag
  | questionMark
  | blueRightArrow
  | highPriority
  | contactInformation
  | meeting
  | timeSensitive
  | lightBulb
  | pushpin
  | home
  | commentBubble
  | smilingFace
  | awardRibbon
  | yellowKey
  | blueCheckBox1
  | blueCircle1
  | blueCheckBox2
  | blueCircle2
  | blueCheckBox3
  | blueCircle3
  | blueEightPointStar
  | blueCheckMark
  | blueCircle
  | blueDownArrow
  | blueLeftArrow
  | blueSolidTarget
  | blueStar
  | blueSun
  | blueTarget
  | blueTriangle
  | blueUmbrella
  | blueUpArrow
  | blueXWithDots
  | blueX
  | greenCheckBox1
  | greenCircle1
  | greenCheckBox2
  | greenCircle2
  | greenCheckBox3
  | greenCircle3
  | greenEightPointStar
  | greenCheckMark
  | greenCircle
  | greenDownArrow
  | greenLeftArrow
  | greenRightArrow
  | greenSolidArrow
  | greenStar
  | greenSun
  | greenTarget
  | greenTriangle
  | greenUmbrella
  | greenUpArrow
  | greenXWithDots
  | greenX
  | yellowCheckBox1
  | yellowCircle1
  | yellowCheckBox2
  | yellowCircle2
  | yellowCheckBox3
  | yellowCircle3
  | yellowEightPointStar
  | yellowCheckMark
  | yellowCircle
  | yellowDownArrow
  | yellowLeftArrow
  | yellowRightArrow
  | yellowSolidTarget
  | yellowSun
  | yellowTarget
  | yellowTriangle
  | yellowUmbrella
  | yellowUpArrow
  | yellowXWithDots
  | yellowX
  | followUpTodayFlag
  | followUpTomorrowFlag
  | followUpThisWeekFlag
  | followUpNextWeekFlag
  | noFollowUpDateFlag
  | bluePersonCheckBox
  | yellowPersonCheckBox
  | greenPersonCheckBox
  | blueFlagCheckBox
  | redFlagCheckBox
  | greenFlagCheckBox
  | redSquare
  | yellowSquare
  | blueSquare
  | greenSquare
  | orangeSquare
  | pinkSquare
  | eMailMessage
  | closedEnvelope
  | openEnvelope
  | mobilePhone
  | telephoneWithClock
  | questionBalloon
  | paperClip
  | frowningFace
  | instantMessagingContactPerson
  | personWithExclamationMark
  | twoPeople
  | reminderBell
  | contact
  | roseOnAStem
  | calendarDateWithClock
  | musicalNote
  | movieClip
  | quotationMark
  | globe
  | hyperlinkGlobe
  | laptop
  | plane
  | car
  | binoculars
  | presentationSlide
  | padlock
  | openBook
  | notebookWithClock
  | blankPaperWithLines
  | research
  | pen
  | dollarSign
  | coinsWithAWindowBackdrop
  | scheduledTask
  | lightningBolt
  | cloud
  | heart
  | sunflower
  deriving DecidableEq, Repr, Inhabited

/-- `NoteTagShape::parse`, /repo/src/one/property/note_tag_shape.rs L158-313. -/
def NoteTagShape.parse (value : Nat) : Res NoteTagShape :=
  match value with
  | 0 => .ok .noIcon
  | 1 => .ok .greenCheckBox
  | 2 => .ok .yellowCheckBox
  | 3 => .ok .blueCheckBox
  | 4 => .ok .greenStarCheckBox
  | 5 => .ok .yellowStarCheckBox
  | 6 => .ok .blueStarCheckBox
  | 7 => .ok .greenExclamationCheckBox
  | 8 => .ok .yellowExclamationCheckBox
  | 9 => .ok .blueExclamationCheckBox
  | 10 => .ok .greenRightArrowCheckBox
  | 11 => .ok .yellowRightArrowCheckBox
  | 12 => .ok .blueRightArrowCheckBox
  | 13 => .ok .yellowStar
  | 14 => .ok .blueFollowUpFlag
  | 15 => .ok .questionMark
  | 16 => .ok .blueRightArrow
  | 17 => .ok .highPriority
  | 18 => .ok .contactInformation
  | 19 => .ok .meeting
  | 20 => .ok .timeSensitive
  | 21 => .ok .lightBulb
  | 22 => .ok .pushpin
  | 23 => .ok .home
  | 24 => .ok .commentBubble
  | 25 => .ok .smilingFace
  | 26 => .ok .awardRibbon
  | 27 => .ok .yellowKey
  | 28 => .ok .blueCheckBox1
  | 29 => .ok .blueCircle1
  | 30 => .ok .blueCheckBox2
  | 31 => .ok .blueCircle2
  | 32 => .ok .blueCheckBox3
  | 33 => .ok .blueCircle3
  | 34 => .ok .blueEightPointStar
  | 35 => .ok .blueCheckMark
  | 36 => .ok .blueCircle
  | 37 => .ok .blueDownArrow
  | 38 => .ok .blueLeftArrow
  | 39 => .ok .blueSolidTarget
  | 40 => .ok .blueStar
  | 41 => .ok .blueSun
  | 42 => .ok .blueTarget
  | 43 => .ok .blueTriangle
  | 44 => .ok .blueUmbrella
  | 45 => .ok .blueUpArrow
  | 46 => .ok .blueXWithDots
  | 47 => .ok .blueX
  | 48 => .ok .greenCheckBox1
  | 49 => .ok .greenCircle1
  | 50 => .ok .greenCheckBox2
  | 51 => .ok .greenCircle2
  | 52 => .ok .greenCheckBox3
  | 53 => .ok .greenCircle3
  | 54 => .ok .greenEightPointStar
  | 55 => .ok .greenCheckMark
  | 56 => .ok .greenCircle
  | 57 => .ok .greenDownArrow
  | 58 => .ok .greenLeftArrow
  | 59 => .ok .greenRightArrow
  | 60 => .ok .greenSolidArrow
  | 61 => .ok .greenStar
  | 62 => .ok .greenSun
  | 63 => .ok .greenTarget
  | 64 => .ok .greenTriangle
  | 65 => .ok .greenUmbrella
  | 66 => .ok .greenUpArrow
  | 67 => .ok .greenXWithDots
  | 68 => .ok .greenX
  | 69 => .ok .yellowCheckBox1
  | 70 => .ok .yellowCircle1
  | 71 => .ok .yellowCheckBox2
  | 72 => .ok .yellowCircle2
  | 73 => .ok .yellowCheckBox3
  | 74 => .ok .yellowCircle3
  | 75 => .ok .yellowEightPointStar
  | 76 => .ok .yellowCheckMark
  | 77 => .ok .yellowCircle
  | 78 => .ok .yellowDownArrow
  | 79 => .ok .yellowLeftArrow
  | 80 => .ok .yellowRightArrow
  | 81 => .ok .yellowSolidTarget
  | 82 => .ok .yellowSun
  | 83 => .ok .yellowTarget
  | 84 => .ok .yellowTriangle
  | 85 => .ok .yellowUmbrella
  | 86 => .ok .yellowUpArrow
  | 87 => .ok .yellowXWithDots
  | 88 => .ok .yellowX
  | 89 => .ok .followUpTodayFlag
  | 90 => .ok .followUpTomorrowFlag
  | 91 => .ok .followUpThisWeekFlag
  | 92 => .ok .followUpNextWeekFlag
  | 93 => .ok .noFollowUpDateFlag
  | 94 => .ok .bluePersonCheckBox
  | 95 => .ok .yellowPersonCheckBox
  | 96 => .ok .greenPersonCheckBox
  | 97 => .ok .blueFlagCheckBox
  | 98 => .ok .redFlagCheckBox
  | 99 => .ok .greenFlagCheckBox
  | 100 => .ok .redSquare
  | 101 => .ok .yellowSquare
  | 102 => .ok .blueSquare
  | 103 => .ok .greenSquare
  | 104 => .ok .orangeSquare
  | 105 => .ok .pinkSquare
  | 106 => .ok .eMailMessage
  | 107 => .ok .closedEnvelope
  | 108 => .ok .openEnvelope
  | 109 => .ok .mobilePhone
  | 110 => .ok .telephoneWithClock
  | 111 => .ok .questionBalloon
  | 112 => .ok .paperClip
  | 113 => .ok .frowningFace
  | 114 => .ok .instantMessagingContactPerson
  | 115 => .ok .personWithExclamationMark
  | 116 => .ok .twoPeople
  | 117 => .ok .reminderBell
  | 118 => .ok .contact
  | 119 => .ok .roseOnAStem
  | 120 => .ok .calendarDateWithClock
  | 121 => .ok .musicalNote
  | 122 => .ok .movieClip
  | 123 => .ok .quotationMark
  | 124 => .ok .globe
  | 125 => .ok .hyperlinkGlobe
  | 126 => .ok .laptop
  | 127 => .ok .plane
  | 128 => .ok .car
  | 129 => .ok .binoculars
  | 130 => .ok .presentationSlide
  | 131 => .ok .padlock
  | 132 => .ok .openBook
  | 133 => .ok .notebookWithClock
  | 134 => .ok .blankPaperWithLines
  | 135 => .ok .research
  | 136 => .ok .pen
  | 137 => .ok .dollarSign
  | 138 => .ok .coinsWithAWindowBackdrop
  | 139 => .ok .scheduledTask
  | 140 => .ok .lightningBolt
  | 141 => .ok .cloud
  | 142 => .ok .heart
  | 143 => .ok .sunflower
  | _ => .error .malformedOneNoteFile

/-- `NoteTagShape::is_checkable`, /repo/src/one/property/note_tag_shape.rs L316-352. -/
def NoteTagShape.isCheckable : NoteTagShape → Bool
  | .greenCheckBox => true
  | .yellowCheckBox => true
  | .blueCheckBox => true
  | .greenStarCheckBox => true
  | .yellowStarCheckBox => true
  | .blueStarCheckBox => true
  | .greenExclamationCheckBox => true
  | .yellowExclamationCheckBox => true
  | .blueExclamationCheckBox => true
  | .greenRightArrowCheckBox => true
  | .yellowRightArrowCheckBox => true
  | .blueRightArrowCheckBox => true
  | .blueCheckBox1 => true
  | .blueCheckBox2 => true
  | .blueCheckBox3 => true
  | .greenCheckBox1 => true
  | .greenCheckBox2 => true
  | .greenCheckBox3 => true
  | .yellowCheckBox1 => true
  | .yellowCheckBox2 => true
  | .yellowCheckBox3 => true
  | .followUpTodayFlag => true
  | .followUpTomorrowFlag => true
  | .followUpThisWeekFlag => true
  | .followUpNextWeekFlag => true
  | .noFollowUpDateFlag => true
  | .bluePersonCheckBox => true
  | .yellowPersonCheckBox => true
  | .greenPersonCheckBox => true
  | .blueFlagCheckBox => true
  | .redFlagCheckBox => true
  | .greenFlagCheckBox => true
  | _ => false

end OneNote
