import Verif.Lemmas.Rock4Check
import Verif.Lemmas.Rock4Rows
import Verif.Tables.Rock4

/-!
# The test of the order of every formula of Tables/Rock4, evaluated by the kernel
-/

namespace Odes.Rock4Check.Rock4

open Tables.Rock4

theorem ok0 : formulaOk scale19 1 recf0 (colRow fpa 0) (colRow fpb 0)
    (colRow fpbe 0) = true := by decide +kernel

theorem ok1 : formulaOk scale19 2 recf1 (colRow fpa 1) (colRow fpb 1)
    (colRow fpbe 1) = true := by decide +kernel

theorem ok2 : formulaOk scale19 3 recf2 (colRow fpa 2) (colRow fpb 2)
    (colRow fpbe 2) = true := by decide +kernel

theorem ok3 : formulaOk scale19 4 recf3 (colRow fpa 3) (colRow fpb 3)
    (colRow fpbe 3) = true := by decide +kernel

theorem ok4 : formulaOk scale19 5 recf4 (colRow fpa 4) (colRow fpb 4)
    (colRow fpbe 4) = true := by decide +kernel

theorem ok5 : formulaOk scale19 6 recf5 (colRow fpa 5) (colRow fpb 5)
    (colRow fpbe 5) = true := by decide +kernel

theorem ok6 : formulaOk scale19 7 recf6 (colRow fpa 6) (colRow fpb 6)
    (colRow fpbe 6) = true := by decide +kernel

theorem ok7 : formulaOk scale19 8 recf7 (colRow fpa 7) (colRow fpb 7)
    (colRow fpbe 7) = true := by decide +kernel

theorem ok8 : formulaOk scale19 9 recf8 (colRow fpa 8) (colRow fpb 8)
    (colRow fpbe 8) = true := by decide +kernel

theorem ok9 : formulaOk scale19 10 recf9 (colRow fpa 9) (colRow fpb 9)
    (colRow fpbe 9) = true := by decide +kernel

theorem ok10 : formulaOk scale19 11 recf10 (colRow fpa 10) (colRow fpb 10)
    (colRow fpbe 10) = true := by decide +kernel

theorem ok11 : formulaOk scale19 12 recf11 (colRow fpa 11) (colRow fpb 11)
    (colRow fpbe 11) = true := by decide +kernel

theorem ok12 : formulaOk scale19 13 recf12 (colRow fpa 12) (colRow fpb 12)
    (colRow fpbe 12) = true := by decide +kernel

theorem ok13 : formulaOk scale19 14 recf13 (colRow fpa 13) (colRow fpb 13)
    (colRow fpbe 13) = true := by decide +kernel

theorem ok14 : formulaOk scale19 15 recf14 (colRow fpa 14) (colRow fpb 14)
    (colRow fpbe 14) = true := by decide +kernel

theorem ok15 : formulaOk scale19 16 recf15 (colRow fpa 15) (colRow fpb 15)
    (colRow fpbe 15) = true := by decide +kernel

theorem ok16 : formulaOk scale19 17 recf16 (colRow fpa 16) (colRow fpb 16)
    (colRow fpbe 16) = true := by decide +kernel

theorem ok17 : formulaOk scale19 18 recf17 (colRow fpa 17) (colRow fpb 17)
    (colRow fpbe 17) = true := by decide +kernel

theorem ok18 : formulaOk scale19 19 recf18 (colRow fpa 18) (colRow fpb 18)
    (colRow fpbe 18) = true := by decide +kernel

theorem ok19 : formulaOk scale19 20 recf19 (colRow fpa 19) (colRow fpb 19)
    (colRow fpbe 19) = true := by decide +kernel

theorem ok20 : formulaOk scale19 22 recf20 (colRow fpa 20) (colRow fpb 20)
    (colRow fpbe 20) = true := by decide +kernel

theorem ok21 : formulaOk scale19 24 recf21 (colRow fpa 21) (colRow fpb 21)
    (colRow fpbe 21) = true := by decide +kernel

theorem ok22 : formulaOk scale19 26 recf22 (colRow fpa 22) (colRow fpb 22)
    (colRow fpbe 22) = true := by decide +kernel

theorem ok23 : formulaOk scale19 28 recf23 (colRow fpa 23) (colRow fpb 23)
    (colRow fpbe 23) = true := by decide +kernel

theorem ok24 : formulaOk scale19 30 recf24 (colRow fpa 24) (colRow fpb 24)
    (colRow fpbe 24) = true := by decide +kernel

theorem ok25 : formulaOk scale19 32 recf25 (colRow fpa 25) (colRow fpb 25)
    (colRow fpbe 25) = true := by decide +kernel

theorem ok26 : formulaOk scale19 34 recf26 (colRow fpa 26) (colRow fpb 26)
    (colRow fpbe 26) = true := by decide +kernel

theorem ok27 : formulaOk scale19 36 recf27 (colRow fpa 27) (colRow fpb 27)
    (colRow fpbe 27) = true := by decide +kernel

theorem ok28 : formulaOk scale19 38 recf28 (colRow fpa 28) (colRow fpb 28)
    (colRow fpbe 28) = true := by decide +kernel

theorem ok29 : formulaOk scale19 41 recf29 (colRow fpa 29) (colRow fpb 29)
    (colRow fpbe 29) = true := by decide +kernel

theorem ok30 : formulaOk scale19 44 recf30 (colRow fpa 30) (colRow fpb 30)
    (colRow fpbe 30) = true := by decide +kernel

theorem ok31 : formulaOk scale19 47 recf31 (colRow fpa 31) (colRow fpb 31)
    (colRow fpbe 31) = true := by decide +kernel

theorem ok32 : formulaOk scale19 50 recf32 (colRow fpa 32) (colRow fpb 32)
    (colRow fpbe 32) = true := by decide +kernel

theorem ok33 : formulaOk scale19 53 recf33 (colRow fpa 33) (colRow fpb 33)
    (colRow fpbe 33) = true := by decide +kernel

theorem ok34 : formulaOk scale19 56 recf34 (colRow fpa 34) (colRow fpb 34)
    (colRow fpbe 34) = true := by decide +kernel

theorem ok35 : formulaOk scale19 59 recf35 (colRow fpa 35) (colRow fpb 35)
    (colRow fpbe 35) = true := by decide +kernel

theorem ok36 : formulaOk scale19 63 recf36 (colRow fpa 36) (colRow fpb 36)
    (colRow fpbe 36) = true := by decide +kernel

theorem ok37 : formulaOk scale19 67 recf37 (colRow fpa 37) (colRow fpb 37)
    (colRow fpbe 37) = true := by decide +kernel

theorem ok38 : formulaOk scale19 71 recf38 (colRow fpa 38) (colRow fpb 38)
    (colRow fpbe 38) = true := by decide +kernel

theorem ok39 : formulaOk scale19 76 recf39 (colRow fpa 39) (colRow fpb 39)
    (colRow fpbe 39) = true := by decide +kernel

theorem ok40 : formulaOk scale19 81 recf40 (colRow fpa 40) (colRow fpb 40)
    (colRow fpbe 40) = true := by decide +kernel

theorem ok41 : formulaOk scale19 86 recf41 (colRow fpa 41) (colRow fpb 41)
    (colRow fpbe 41) = true := by decide +kernel

theorem ok42 : formulaOk scale19 92 recf42 (colRow fpa 42) (colRow fpb 42)
    (colRow fpbe 42) = true := by decide +kernel

theorem ok43 : formulaOk scale19 98 recf43 (colRow fpa 43) (colRow fpb 43)
    (colRow fpbe 43) = true := by decide +kernel

theorem ok44 : formulaOk scale19 105 recf44 (colRow fpa 44) (colRow fpb 44)
    (colRow fpbe 44) = true := by decide +kernel

theorem ok45 : formulaOk scale19 112 recf45 (colRow fpa 45) (colRow fpb 45)
    (colRow fpbe 45) = true := by decide +kernel

theorem ok46 : formulaOk scale19 120 recf46 (colRow fpa 46) (colRow fpb 46)
    (colRow fpbe 46) = true := by decide +kernel

theorem ok47 : formulaOk scale19 129 recf47 (colRow fpa 47) (colRow fpb 47)
    (colRow fpbe 47) = true := by decide +kernel

theorem ok48 : formulaOk scale19 138 recf48 (colRow fpa 48) (colRow fpb 48)
    (colRow fpbe 48) = true := by decide +kernel

theorem ok49 : formulaOk scale19 148 recf49 (colRow fpa 49) (colRow fpb 49)
    (colRow fpbe 49) = true := by decide +kernel

/-- all formulas pass the test. -/
theorem all_ok : ∀ k : ℕ, k < 50 → formulaOk scale19 (degs.getD k 0) (recf.getD k [])
    (colRow fpa k) (colRow fpb k) (colRow fpbe k) = true := by
  intro k hk
  match k, hk with
  | 0, _ => exact ok0
  | 1, _ => exact ok1
  | 2, _ => exact ok2
  | 3, _ => exact ok3
  | 4, _ => exact ok4
  | 5, _ => exact ok5
  | 6, _ => exact ok6
  | 7, _ => exact ok7
  | 8, _ => exact ok8
  | 9, _ => exact ok9
  | 10, _ => exact ok10
  | 11, _ => exact ok11
  | 12, _ => exact ok12
  | 13, _ => exact ok13
  | 14, _ => exact ok14
  | 15, _ => exact ok15
  | 16, _ => exact ok16
  | 17, _ => exact ok17
  | 18, _ => exact ok18
  | 19, _ => exact ok19
  | 20, _ => exact ok20
  | 21, _ => exact ok21
  | 22, _ => exact ok22
  | 23, _ => exact ok23
  | 24, _ => exact ok24
  | 25, _ => exact ok25
  | 26, _ => exact ok26
  | 27, _ => exact ok27
  | 28, _ => exact ok28
  | 29, _ => exact ok29
  | 30, _ => exact ok30
  | 31, _ => exact ok31
  | 32, _ => exact ok32
  | 33, _ => exact ok33
  | 34, _ => exact ok34
  | 35, _ => exact ok35
  | 36, _ => exact ok36
  | 37, _ => exact ok37
  | 38, _ => exact ok38
  | 39, _ => exact ok39
  | 40, _ => exact ok40
  | 41, _ => exact ok41
  | 42, _ => exact ok42
  | 43, _ => exact ok43
  | 44, _ => exact ok44
  | 45, _ => exact ok45
  | 46, _ => exact ok46
  | 47, _ => exact ok47
  | 48, _ => exact ok48
  | 49, _ => exact ok49
  | k + 50, h => omega

end Odes.Rock4Check.Rock4
