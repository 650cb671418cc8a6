import Verif.Model.Run
import Verif.Model.Beq
import Verif.Model.VecIO
import Verif.Model.Config
import Verif.Model.Debugger
import Verif.Model.Multiverse
import Verif.Model.Sync
import Verif.Props.C01_Stack
import Verif.Props.C03_Safety
import Verif.Props.C04_VectorOrder
import Verif.Props.C06_VectorText
import Verif.Props.C07_VectorRange
import Verif.Props.C08_Field
import Verif.Props.C100_Files
import Verif.Props.C101_Reference
import Verif.Props.C102_Fish
import Verif.Props.C103_Strings
import Verif.Props.C104_Many
import Verif.Props.C105_Future
import Verif.Props.C106_Letters
import Verif.Props.C107_Fisherman
import Verif.Props.C108_Overflow
import Verif.Props.C109_Teardown
import Verif.Props.C110_WaitAll
import Verif.Props.C111_Races
import Verif.Props.C112_LibFile
import Verif.Props.C113_Debugged
import Verif.Props.C114_Unseen
import Verif.Props.C115_Both
import Verif.Props.C116_Starfish
import Verif.Props.C117_Told
import Verif.Props.C118_StarMachine
import Verif.Props.C119_Worlds
import Verif.Props.C11_Loader
import Verif.Props.C121_Apart
import Verif.Props.C122_Library
import Verif.Props.C14_DumpLoad
import Verif.Props.C15_Motion
import Verif.Props.C18_Jumps
import Verif.Props.C19_Modes
import Verif.Props.C20_Modes
import Verif.Props.C20_Strings
import Verif.Props.C23_Arithmetic
import Verif.Props.C24_Modes
import Verif.Props.C24_PutGet
import Verif.Props.C25_Blocks
import Verif.Props.C25_Modes
import Verif.Props.C27_SysInfo
import Verif.Props.C28_Iterate
import Verif.Props.C29_Threads
import Verif.Props.C30_Schedule
import Verif.Props.C32_Permissions
import Verif.Props.C33_Fingerprints
import Verif.Props.C35_Unknown
import Verif.Props.C37_Modes
import Verif.Props.C39_Names
import Verif.Props.C40_Wakeup
import Verif.Props.C42_Modes
import Verif.Props.C42_Output
import Verif.Props.C43_Debugger
import Verif.Props.C45_Fish
import Verif.Props.C50_Directions
import Verif.Props.C50_Modes
import Verif.Props.C51_FRTH
import Verif.Props.C52_Modes
import Verif.Props.C53_SUBR
import Verif.Props.C54_STRN
import Verif.Props.C55_BASE
import Verif.Props.C56_TOYS
import Verif.Props.C57_IIPC
import Verif.Props.C58_Modes
import Verif.Props.C59_NFUN
import Verif.Props.C60_Config
import Verif.Props.C64_Input
import Verif.Props.C64_Modes
import Verif.Props.C66_Beq
import Verif.Props.C68_Multiverse
import Verif.Props.C69_Modu
import Verif.Props.C70_Roma
import Verif.Props.C71_Term
import Verif.Props.C72_Null
import Verif.Props.C73_Bits
import Verif.Props.C73_Modes
import Verif.Props.C74_CPLI
import Verif.Props.C75_JSTR
import Verif.Props.C76_ORTH
import Verif.Props.C77_Toys
import Verif.Props.C80_Numbers
import Verif.Props.C83_Mvrs
import Verif.Props.C85_Iterate
import Verif.Props.C86_Isolation
import Verif.Props.C87_Space
import Verif.Props.C88_Modes
import Verif.Props.C88_Words
import Verif.Props.C90_FishWords
import Verif.Props.C92_Programs
import Verif.Props.C93_Factorial
import Verif.Props.C94_Texts
import Verif.Props.C95_Expressions
import Verif.Props.C96_Window
import Verif.Props.C97_Prompt
import Verif.Props.C98_Changes
import Verif.Props.C99_System
