import Verif.Lemmas.Rock4Stab -- only so that the two are not built at the same time
import Verif.Lemmas.Rock4Rows
import Verif.Tables.Rock4L
import Verif.Tables.RockStab

/-!
# The test of the stability of every formula of Tables/Rock4L, evaluated by the kernel
-/

-- one theorem at a time: each needs up to 4 GB
set_option Elab.async false

namespace Odes.StabCheck.Rock4L

open Tables.Rock4L Tables.RockStab Rock4Check

theorem ok0 : formulaStable scale19 1000 1 recf0 (rowRow fpa 0) (rowRow fpb 0)
    5825 970 pts0 = true := by decide +kernel

theorem ok1 : formulaStable scale19 1000 2 recf1 (rowRow fpa 1) (rowRow fpb 1)
    9708 970 pts1 = true := by decide +kernel

theorem ok2 : formulaStable scale19 1000 3 recf2 (rowRow fpa 2) (rowRow fpb 2)
    14297 970 pts2 = true := by decide +kernel

theorem ok3 : formulaStable scale19 1000 4 recf3 (rowRow fpa 3) (rowRow fpb 3)
    19592 970 pts3 = true := by decide +kernel

theorem ok4 : formulaStable scale19 1000 5 recf4 (rowRow fpa 4) (rowRow fpb 4)
    25593 970 pts4 = true := by decide +kernel

theorem ok5 : formulaStable scale19 1000 6 recf5 (rowRow fpa 5) (rowRow fpb 5)
    32300 970 pts5 = true := by decide +kernel

theorem ok6 : formulaStable scale19 1000 7 recf6 (rowRow fpa 6) (rowRow fpb 6)
    39713 970 pts6 = true := by decide +kernel

theorem ok7 : formulaStable scale19 1000 8 recf7 (rowRow fpa 7) (rowRow fpb 7)
    47832 970 pts7 = true := by decide +kernel

theorem ok8 : formulaStable scale19 1000 9 recf8 (rowRow fpa 8) (rowRow fpb 8)
    56657 970 pts8 = true := by decide +kernel

theorem ok9 : formulaStable scale19 1000 10 recf9 (rowRow fpa 9) (rowRow fpb 9)
    66188 970 pts9 = true := by decide +kernel

theorem ok10 : formulaStable scale19 1000 11 recf10 (rowRow fpa 10) (rowRow fpb 10)
    76425 970 pts10 = true := by decide +kernel

theorem ok11 : formulaStable scale19 1000 12 recf11 (rowRow fpa 11) (rowRow fpb 11)
    87368 970 pts11 = true := by decide +kernel

theorem ok12 : formulaStable scale19 1000 13 recf12 (rowRow fpa 12) (rowRow fpb 12)
    99017 970 pts12 = true := by decide +kernel

theorem ok13 : formulaStable scale19 1000 14 recf13 (rowRow fpa 13) (rowRow fpb 13)
    111372 970 pts13 = true := by decide +kernel

theorem ok14 : formulaStable scale19 1000 15 recf14 (rowRow fpa 14) (rowRow fpb 14)
    124433 970 pts14 = true := by decide +kernel

theorem ok15 : formulaStable scale19 1000 16 recf15 (rowRow fpa 15) (rowRow fpb 15)
    138200 970 pts15 = true := by decide +kernel

theorem ok16 : formulaStable scale19 1000 17 recf16 (rowRow fpa 16) (rowRow fpb 16)
    152673 970 pts16 = true := by decide +kernel

theorem ok17 : formulaStable scale19 1000 18 recf17 (rowRow fpa 17) (rowRow fpb 17)
    167852 970 pts17 = true := by decide +kernel

theorem ok18 : formulaStable scale19 1000 19 recf18 (rowRow fpa 18) (rowRow fpb 18)
    183737 970 pts18 = true := by decide +kernel

theorem ok19 : formulaStable scale19 1000 20 recf19 (rowRow fpa 19) (rowRow fpb 19)
    200328 970 pts19 = true := by decide +kernel

theorem ok20 : formulaStable scale19 1000 22 recf20 (rowRow fpa 20) (rowRow fpb 20)
    235628 970 pts20 = true := by decide +kernel

theorem ok21 : formulaStable scale19 1000 24 recf21 (rowRow fpa 21) (rowRow fpb 21)
    273752 970 pts21 = true := by decide +kernel

theorem ok22 : formulaStable scale19 1000 26 recf22 (rowRow fpa 22) (rowRow fpb 22)
    314700 970 pts22 = true := by decide +kernel

theorem ok23 : formulaStable scale19 1000 28 recf23 (rowRow fpa 23) (rowRow fpb 23)
    358472 970 pts23 = true := by decide +kernel

theorem ok24 : formulaStable scale19 1000 30 recf24 (rowRow fpa 24) (rowRow fpb 24)
    405068 970 pts24 = true := by decide +kernel

theorem ok25 : formulaStable scale19 1000 32 recf25 (rowRow fpa 25) (rowRow fpb 25)
    454488 970 pts25 = true := by decide +kernel

theorem ok26 : formulaStable scale19 1000 34 recf26 (rowRow fpa 26) (rowRow fpb 26)
    506732 970 pts26 = true := by decide +kernel

theorem ok27 : formulaStable scale19 1000 36 recf27 (rowRow fpa 27) (rowRow fpb 27)
    561800 970 pts27 = true := by decide +kernel

theorem ok28 : formulaStable scale19 1000 38 recf28 (rowRow fpa 28) (rowRow fpb 28)
    619692 970 pts28 = true := by decide +kernel

theorem ok29 : formulaStable scale19 1000 41 recf29 (rowRow fpa 29) (rowRow fpb 29)
    711825 970 pts29 = true := by decide +kernel

theorem ok30 : formulaStable scale19 1000 44 recf30 (rowRow fpa 30) (rowRow fpb 30)
    810312 970 pts30 = true := by decide +kernel

theorem ok31 : formulaStable scale19 1000 47 recf31 (rowRow fpa 31) (rowRow fpb 31)
    915153 970 pts31 = true := by decide +kernel

theorem ok32 : formulaStable scale19 1000 50 recf32 (rowRow fpa 32) (rowRow fpb 32)
    1026348 970 pts32 = true := by decide +kernel

theorem ok33 : formulaStable scale19 1000 53 recf33 (rowRow fpa 33) (rowRow fpb 33)
    1143897 970 pts33 = true := by decide +kernel

theorem ok34 : formulaStable scale19 1000 56 recf34 (rowRow fpa 34) (rowRow fpb 34)
    1267800 970 pts34 = true := by decide +kernel

theorem ok35 : formulaStable scale19 1000 59 recf35 (rowRow fpa 35) (rowRow fpb 35)
    1398057 970 pts35 = true := by decide +kernel

theorem ok36 : formulaStable scale19 1000 63 recf36 (rowRow fpa 36) (rowRow fpb 36)
    1581617 1150 pts36 = true := by decide +kernel

theorem ok37 : formulaStable scale19 1000 67 recf37 (rowRow fpa 37) (rowRow fpb 37)
    1776473 1000 pts37 = true := by decide +kernel

theorem ok38 : formulaStable scale19 1000 71 recf38 (rowRow fpa 38) (rowRow fpb 38)
    1982625 1000 pts38 = true := by decide +kernel

theorem ok39 : formulaStable scale19 1000 76 recf39 (rowRow fpa 39) (rowRow fpb 39)
    2256200 1000 pts39 = true := by decide +kernel

theorem ok40 : formulaStable scale19 1000 81 recf40 (rowRow fpa 40) (rowRow fpb 40)
    2547425 1000 pts40 = true := by decide +kernel

theorem ok41 : formulaStable scale19 1000 86 recf41 (rowRow fpa 41) (rowRow fpb 41)
    2856300 1000 pts41 = true := by decide +kernel

theorem ok42 : formulaStable scale19 1000 92 recf42 (rowRow fpa 42) (rowRow fpb 42)
    3250248 1000 pts42 = true := by decide +kernel

theorem ok43 : formulaStable scale19 1000 98 recf43 (rowRow fpa 43) (rowRow fpb 43)
    3669612 1000 pts43 = true := by decide +kernel

theorem ok44 : formulaStable scale19 1000 105 recf44 (rowRow fpa 44) (rowRow fpb 44)
    4190993 1000 pts44 = true := by decide +kernel

theorem ok45 : formulaStable scale19 1000 112 recf45 (rowRow fpa 45) (rowRow fpb 45)
    4746968 1000 pts45 = true := by decide +kernel

theorem ok46 : formulaStable scale19 1000 120 recf46 (rowRow fpa 46) (rowRow fpb 46)
    5424728 1000 pts46 = true := by decide +kernel

theorem ok47 : formulaStable scale19 1000 129 recf47 (rowRow fpa 47) (rowRow fpb 47)
    6241217 1010 pts47 = true := by decide +kernel

theorem ok48 : formulaStable scale19 1000 138 recf48 (rowRow fpa 48) (rowRow fpb 48)
    7114892 1000 pts48 = true := by decide +kernel

theorem ok49 : formulaStable scale19 1000 148 recf49 (rowRow fpa 49) (rowRow fpb 49)
    8152712 1010 pts49 = true := by decide +kernel

end Odes.StabCheck.Rock4L
