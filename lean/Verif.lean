import Verif.Qt.PropsRoundTrip
import Verif.Qt.PropsTranslation
import Verif.Qt.PropsWriter
import Verif.Qt.PropsAbort
import Verif.Qt.PropsUndefined
import Verif.Qt.PropsFormat
import Verif.Qt.PropsReader
import Verif.Qt.PropsBranch
import Verif.Branch.PropsLinkStack
import Verif.Htm.PropsTlb
import Verif.Htable.PropsHtable
import Verif.Htable.Map
import Verif.Htable.PropsMore
import Verif.Htm.PropsErat
import Verif.Htm.PropsPwc
import Verif.Htm.PropsMerge
import Verif.Htm.PropsXlate
import Verif.Htm.PropsWalk
import Verif.Htm.PropsEara
import Verif.Htm.PropsBits
import Verif.Htm.PropsRecode
import Verif.Htm.PropsRecode9
import Verif.Htm.PropsSource
import Verif.Htm.PropsStamps
import Verif.Htm.PropsInsn
import Verif.Htm.PropsConvert
import Verif.Bbv.PropsMatrix
import Verif.Bbv.PropsPam
import Verif.Bbv.PropsWeights
import Verif.Bbv.PropsVectors
import Verif.Bbv.PropsVectorsCases
import Verif.Stats.PropsStats
import Verif.Stats.PropsImix
import Verif.Stats.PropsPrint
import Verif.Stats.PropsBb
import Verif.Stats.PropsBbExact
import Verif.Stats.PropsBlocks
import Verif.Ptracer.PropsStorage
import Verif.Ptracer.PropsStep
import Verif.Ptracer.PropsPids
import Verif.Ptracer.PropsPagemap
import Verif.Ptracer.PropsWindow
import Verif.Ptracer.PropsRecord
import Verif.Build.Props
import Verif.Dis.Props
import Verif.Dis.PropsSymbols
import Verif.Text.Props
import Verif.Clist.Props
import Verif.Clist.PropsFragments
import Verif.Htm.PropsTime
import Verif.Htm.PropsGuest
import Verif.Htm.PropsGuestFile
import Verif.Ptracer.PropsAttach
import Verif.Ptracer.PropsLaunch
import Verif.Ptracer.PropsSession
import Verif.Ptracer.PropsLog
import Verif.Ptracer.PropsLoop
import Verif.Stats.PropsScript
import Verif.Hash.Props
import Verif.Bbv.PropsSweep
import Verif.Qt.PropsTold
import Verif.Ptracer.PropsLive
import Verif.Build.PropsText
import Verif.Branch.PropsTrace
import Verif.Dis.PropsCounts
import Verif.Qt.PropsHeader
import Verif.Htm.PropsCounts
import Verif.Htm.PropsGuestCounts
import Verif.Htm.PropsReal9
import Verif.Dis.PropsMaps
import Verif.Dis.PropsVerbose
import Verif.Cmd.Props
import Verif.Cmd.PropsLong
import Verif.Ptracer.PropsTasks
import Verif.Htm.PropsSummary
import Verif.Htm.PropsGuestSummary
import Verif.Htm.PropsSummaryAll
import Verif.Htm.PropsGuestTwo
import Verif.Htm.PropsListing
import Verif.Htm.PropsOrder
import Verif.Htm.PropsTlbDump
import Verif.Htm.PropsReport
import Verif.Htm.PropsTlbAll
import Verif.Htm.PropsHalt
import Verif.Htm.Conformance
import Verif.Branch.PropsRing
import Verif.Stats.PropsPercent
import Verif.Tap.Props
import Verif.Str.Props
import Verif.Opc.Props
import Verif.Opc.PropsEntry
import Verif.Bbv.PropsMatrixTest
import Verif.Bbv.PropsOutput
import Verif.Bbv.PropsVerbose
import Verif.Opc.PropsAgain
import Verif.Opc.PropsRegisters
import Verif.Opc.PropsPrediction
import Verif.Opc.PropsWord
import Verif.Opc.PropsSame
import Verif.Qt.PropsCopy
import Verif.Qt.PropsCopyGrowth
import Verif.Qt.PropsCopyCases
import Verif.Qt.Conformance
import Verif.Qt.PropsCopyPlain
import Verif.Qt.PropsCopyTwice
import Verif.Qt.PropsCopyTwiceCases
import Verif.Qt.PropsResource
import Verif.Ptracer.PropsCounters
import Verif.Ptracer.PropsSurround
import Verif.Hash.PropsText
import Verif.Bbv.PropsDump
import Verif.Clist.PropsCheck
import Verif.Bbv.PropsMemory
import Verif.Bbv.MemoryBridge
import Verif.Bbv.PropsMemoryCases
import Verif.Ptracer.PropsPageSizes
import Verif.Fmt.Props
import Verif.Qt.PropsShow
import Verif.Qt.PropsJoined
import Verif.Qt.PropsJoinedCases
import Verif.Qt.PropsJoinedWalks
import Verif.Opc.SpecForms
import Verif.Opc.Forms
import Verif.Opc.PropsForms
import Verif.Opc.PropsHidden
import Verif.Qt.PropsJoinedWords
import Verif.Ptracer.EventMessage
import Verif.Ptracer.PropsMessage
import Verif.Qt.PropsJoinedCopy
