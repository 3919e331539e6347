import Verif.Lemmas.Rock4Check
import Verif.Lemmas.Rock4Rows
import Verif.Tables.Rock4L

/-!
# The test of the order of every formula of Tables/Rock4L, evaluated by the kernel
-/

namespace Odes.Rock4Check.Rock4L

open Tables.Rock4L

theorem ok0 : formulaOk scale19 1 recf0 (rowRow fpa 0) (rowRow fpb 0)
    (rowRow fpbe 0) = true := by decide +kernel

theorem ok1 : formulaOk scale19 2 recf1 (rowRow fpa 1) (rowRow fpb 1)
    (rowRow fpbe 1) = true := by decide +kernel

theorem ok2 : formulaOk scale19 3 recf2 (rowRow fpa 2) (rowRow fpb 2)
    (rowRow fpbe 2) = true := by decide +kernel

theorem ok3 : formulaOk scale19 4 recf3 (rowRow fpa 3) (rowRow fpb 3)
    (rowRow fpbe 3) = true := by decide +kernel

theorem ok4 : formulaOk scale19 5 recf4 (rowRow fpa 4) (rowRow fpb 4)
    (rowRow fpbe 4) = true := by decide +kernel

theorem ok5 : formulaOk scale19 6 recf5 (rowRow fpa 5) (rowRow fpb 5)
    (rowRow fpbe 5) = true := by decide +kernel

theorem ok6 : formulaOk scale19 7 recf6 (rowRow fpa 6) (rowRow fpb 6)
    (rowRow fpbe 6) = true := by decide +kernel

theorem ok7 : formulaOk scale19 8 recf7 (rowRow fpa 7) (rowRow fpb 7)
    (rowRow fpbe 7) = true := by decide +kernel

theorem ok8 : formulaOk scale19 9 recf8 (rowRow fpa 8) (rowRow fpb 8)
    (rowRow fpbe 8) = true := by decide +kernel

theorem ok9 : formulaOk scale19 10 recf9 (rowRow fpa 9) (rowRow fpb 9)
    (rowRow fpbe 9) = true := by decide +kernel

theorem ok10 : formulaOk scale19 11 recf10 (rowRow fpa 10) (rowRow fpb 10)
    (rowRow fpbe 10) = true := by decide +kernel

theorem ok11 : formulaOk scale19 12 recf11 (rowRow fpa 11) (rowRow fpb 11)
    (rowRow fpbe 11) = true := by decide +kernel

theorem ok12 : formulaOk scale19 13 recf12 (rowRow fpa 12) (rowRow fpb 12)
    (rowRow fpbe 12) = true := by decide +kernel

theorem ok13 : formulaOk scale19 14 recf13 (rowRow fpa 13) (rowRow fpb 13)
    (rowRow fpbe 13) = true := by decide +kernel

theorem ok14 : formulaOk scale19 15 recf14 (rowRow fpa 14) (rowRow fpb 14)
    (rowRow fpbe 14) = true := by decide +kernel

theorem ok15 : formulaOk scale19 16 recf15 (rowRow fpa 15) (rowRow fpb 15)
    (rowRow fpbe 15) = true := by decide +kernel

theorem ok16 : formulaOk scale19 17 recf16 (rowRow fpa 16) (rowRow fpb 16)
    (rowRow fpbe 16) = true := by decide +kernel

theorem ok17 : formulaOk scale19 18 recf17 (rowRow fpa 17) (rowRow fpb 17)
    (rowRow fpbe 17) = true := by decide +kernel

theorem ok18 : formulaOk scale19 19 recf18 (rowRow fpa 18) (rowRow fpb 18)
    (rowRow fpbe 18) = true := by decide +kernel

theorem ok19 : formulaOk scale19 20 recf19 (rowRow fpa 19) (rowRow fpb 19)
    (rowRow fpbe 19) = true := by decide +kernel

theorem ok20 : formulaOk scale19 22 recf20 (rowRow fpa 20) (rowRow fpb 20)
    (rowRow fpbe 20) = true := by decide +kernel

theorem ok21 : formulaOk scale19 24 recf21 (rowRow fpa 21) (rowRow fpb 21)
    (rowRow fpbe 21) = true := by decide +kernel

theorem ok22 : formulaOk scale19 26 recf22 (rowRow fpa 22) (rowRow fpb 22)
    (rowRow fpbe 22) = true := by decide +kernel

theorem ok23 : formulaOk scale19 28 recf23 (rowRow fpa 23) (rowRow fpb 23)
    (rowRow fpbe 23) = true := by decide +kernel

theorem ok24 : formulaOk scale19 30 recf24 (rowRow fpa 24) (rowRow fpb 24)
    (rowRow fpbe 24) = true := by decide +kernel

theorem ok25 : formulaOk scale19 32 recf25 (rowRow fpa 25) (rowRow fpb 25)
    (rowRow fpbe 25) = true := by decide +kernel

theorem ok26 : formulaOk scale19 34 recf26 (rowRow fpa 26) (rowRow fpb 26)
    (rowRow fpbe 26) = true := by decide +kernel

theorem ok27 : formulaOk scale19 36 recf27 (rowRow fpa 27) (rowRow fpb 27)
    (rowRow fpbe 27) = true := by decide +kernel

theorem ok28 : formulaOk scale19 38 recf28 (rowRow fpa 28) (rowRow fpb 28)
    (rowRow fpbe 28) = true := by decide +kernel

theorem ok29 : formulaOk scale19 41 recf29 (rowRow fpa 29) (rowRow fpb 29)
    (rowRow fpbe 29) = true := by decide +kernel

theorem ok30 : formulaOk scale19 44 recf30 (rowRow fpa 30) (rowRow fpb 30)
    (rowRow fpbe 30) = true := by decide +kernel

theorem ok31 : formulaOk scale19 47 recf31 (rowRow fpa 31) (rowRow fpb 31)
    (rowRow fpbe 31) = true := by decide +kernel

theorem ok32 : formulaOk scale19 50 recf32 (rowRow fpa 32) (rowRow fpb 32)
    (rowRow fpbe 32) = true := by decide +kernel

theorem ok33 : formulaOk scale19 53 recf33 (rowRow fpa 33) (rowRow fpb 33)
    (rowRow fpbe 33) = true := by decide +kernel

theorem ok34 : formulaOk scale19 56 recf34 (rowRow fpa 34) (rowRow fpb 34)
    (rowRow fpbe 34) = true := by decide +kernel

theorem ok35 : formulaOk scale19 59 recf35 (rowRow fpa 35) (rowRow fpb 35)
    (rowRow fpbe 35) = true := by decide +kernel

theorem ok36 : formulaOk scale19 63 recf36 (rowRow fpa 36) (rowRow fpb 36)
    (rowRow fpbe 36) = true := by decide +kernel

theorem ok37 : formulaOk scale19 67 recf37 (rowRow fpa 37) (rowRow fpb 37)
    (rowRow fpbe 37) = true := by decide +kernel

theorem ok38 : formulaOk scale19 71 recf38 (rowRow fpa 38) (rowRow fpb 38)
    (rowRow fpbe 38) = true := by decide +kernel

theorem ok39 : formulaOk scale19 76 recf39 (rowRow fpa 39) (rowRow fpb 39)
    (rowRow fpbe 39) = true := by decide +kernel

theorem ok40 : formulaOk scale19 81 recf40 (rowRow fpa 40) (rowRow fpb 40)
    (rowRow fpbe 40) = true := by decide +kernel

theorem ok41 : formulaOk scale19 86 recf41 (rowRow fpa 41) (rowRow fpb 41)
    (rowRow fpbe 41) = true := by decide +kernel

theorem ok42 : formulaOk scale19 92 recf42 (rowRow fpa 42) (rowRow fpb 42)
    (rowRow fpbe 42) = true := by decide +kernel

theorem ok43 : formulaOk scale19 98 recf43 (rowRow fpa 43) (rowRow fpb 43)
    (rowRow fpbe 43) = true := by decide +kernel

theorem ok44 : formulaOk scale19 105 recf44 (rowRow fpa 44) (rowRow fpb 44)
    (rowRow fpbe 44) = true := by decide +kernel

theorem ok45 : formulaOk scale19 112 recf45 (rowRow fpa 45) (rowRow fpb 45)
    (rowRow fpbe 45) = true := by decide +kernel

theorem ok46 : formulaOk scale19 120 recf46 (rowRow fpa 46) (rowRow fpb 46)
    (rowRow fpbe 46) = true := by decide +kernel

theorem ok47 : formulaOk scale19 129 recf47 (rowRow fpa 47) (rowRow fpb 47)
    (rowRow fpbe 47) = true := by decide +kernel

theorem ok48 : formulaOk scale19 138 recf48 (rowRow fpa 48) (rowRow fpb 48)
    (rowRow fpbe 48) = true := by decide +kernel

theorem ok49 : formulaOk scale19 148 recf49 (rowRow fpa 49) (rowRow fpb 49)
    (rowRow fpbe 49) = true := by decide +kernel

/-- all formulas pass the test. -/
theorem all_ok : ∀ k : ℕ, k < 50 → formulaOk scale19 (degs.getD k 0) (recf.getD k [])
    (rowRow fpa k) (rowRow fpb k) (rowRow fpbe k) = true := by
  intro k hk
  match k, hk with
  | 0, _ => exact ok0
  | 1, _ => exact ok1
  | 2, _ => exact ok2
  | 3, _ => exact ok3
  | 4, _ => exact ok4
  | 5, _ => exact ok5
  | 6, _ => exact ok6
  | 7, _ => exact ok7
  | 8, _ => exact ok8
  | 9, _ => exact ok9
  | 10, _ => exact ok10
  | 11, _ => exact ok11
  | 12, _ => exact ok12
  | 13, _ => exact ok13
  | 14, _ => exact ok14
  | 15, _ => exact ok15
  | 16, _ => exact ok16
  | 17, _ => exact ok17
  | 18, _ => exact ok18
  | 19, _ => exact ok19
  | 20, _ => exact ok20
  | 21, _ => exact ok21
  | 22, _ => exact ok22
  | 23, _ => exact ok23
  | 24, _ => exact ok24
  | 25, _ => exact ok25
  | 26, _ => exact ok26
  | 27, _ => exact ok27
  | 28, _ => exact ok28
  | 29, _ => exact ok29
  | 30, _ => exact ok30
  | 31, _ => exact ok31
  | 32, _ => exact ok32
  | 33, _ => exact ok33
  | 34, _ => exact ok34
  | 35, _ => exact ok35
  | 36, _ => exact ok36
  | 37, _ => exact ok37
  | 38, _ => exact ok38
  | 39, _ => exact ok39
  | 40, _ => exact ok40
  | 41, _ => exact ok41
  | 42, _ => exact ok42
  | 43, _ => exact ok43
  | 44, _ => exact ok44
  | 45, _ => exact ok45
  | 46, _ => exact ok46
  | 47, _ => exact ok47
  | 48, _ => exact ok48
  | 49, _ => exact ok49
  | k + 50, h => omega

end Odes.Rock4Check.Rock4L
