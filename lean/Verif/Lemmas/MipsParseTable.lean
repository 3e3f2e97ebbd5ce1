import Verif.Lemmas.MipsParseLine
import Verif.Spec.Mips
/-!
# The rows of the table

The names and the syntax of all rows as lists (`rowTable`), and that no row hides another one.
-/
namespace Armips.MipsParse
open ExprParse (Tok)
open Mips (Slot ImmType SecType Op Operands Version Flag)
open Spec.MipsParse

/-- Names and syntax of the rows 0 to 99. -/
def rowTable0 : List (List Nat × List Elem) := [
  ([106], [.imm .i26]),
  ([106, 97, 108], [.imm .i26]),
  ([98, 101, 113], [.reg .cpu .grs, .sym ',', .reg .cpu .grt, .sym ',', .imm .i16]),
  ([98, 101, 113, 122], [.reg .cpu .grs, .sym ',', .imm .i16]),
  ([98], [.imm .i16]),
  ([98, 110, 101], [.reg .cpu .grs, .sym ',', .reg .cpu .grt, .sym ',', .imm .i16]),
  ([98, 110, 101, 122], [.reg .cpu .grs, .sym ',', .imm .i16]),
  ([98, 108, 101, 122], [.reg .cpu .grs, .sym ',', .imm .i16]),
  ([98, 103, 116, 122], [.reg .cpu .grs, .sym ',', .imm .i16]),
  ([97, 100, 100, 105], [.reg .cpu .grt, .sym ',', .reg .cpu .grs, .sym ',', .imm .i16]),
  ([97, 100, 100, 105], [.reg .cpu .grs, .sym ',', .imm .i16]),
  ([115, 117, 98, 105], [.reg .cpu .grt, .sym ',', .reg .cpu .grs, .sym ',', .imm .i16]),
  ([115, 117, 98, 105], [.reg .cpu .grs, .sym ',', .imm .i16]),
  ([97, 100, 100, 105, 117], [.reg .cpu .grt, .sym ',', .reg .cpu .grs, .sym ',', .imm .i16]),
  ([97, 100, 100, 105, 117], [.reg .cpu .grs, .sym ',', .imm .i16]),
  ([115, 117, 98, 105, 117], [.reg .cpu .grt, .sym ',', .reg .cpu .grs, .sym ',', .imm .i16]),
  ([115, 117, 98, 105, 117], [.reg .cpu .grs, .sym ',', .imm .i16]),
  ([115, 108, 116, 105], [.reg .cpu .grt, .sym ',', .reg .cpu .grs, .sym ',', .imm .i16]),
  ([115, 108, 116, 105], [.reg .cpu .grs, .sym ',', .imm .i16]),
  ([115, 108, 116, 105, 117], [.reg .cpu .grt, .sym ',', .reg .cpu .grs, .sym ',', .imm .i16]),
  ([115, 108, 116, 105, 117], [.reg .cpu .grs, .sym ',', .imm .i16]),
  ([97, 110, 100, 105], [.reg .cpu .grt, .sym ',', .reg .cpu .grs, .sym ',', .imm .i16]),
  ([97, 110, 100, 105], [.reg .cpu .grs, .sym ',', .imm .i16]),
  ([111, 114, 105], [.reg .cpu .grt, .sym ',', .reg .cpu .grs, .sym ',', .imm .i16]),
  ([111, 114, 105], [.reg .cpu .grs, .sym ',', .imm .i16]),
  ([120, 111, 114, 105], [.reg .cpu .grt, .sym ',', .reg .cpu .grs, .sym ',', .imm .i16]),
  ([120, 111, 114, 105], [.reg .cpu .grs, .sym ',', .imm .i16]),
  ([108, 117, 105], [.reg .cpu .grt, .sym ',', .imm .i16]),
  ([99, 111, 112, 50], [.imm .i25]),
  ([98, 101, 113, 108], [.reg .cpu .grs, .sym ',', .reg .cpu .grt, .sym ',', .imm .i16]),
  ([98, 101, 113, 122, 108], [.reg .cpu .grs, .sym ',', .imm .i16]),
  ([98, 110, 101, 108], [.reg .cpu .grs, .sym ',', .reg .cpu .grt, .sym ',', .imm .i16]),
  ([98, 110, 101, 122, 108], [.reg .cpu .grs, .sym ',', .imm .i16]),
  ([98, 108, 101, 122, 108], [.reg .cpu .grs, .sym ',', .imm .i16]),
  ([98, 103, 116, 122, 108], [.reg .cpu .grs, .sym ',', .imm .i16]),
  ([100, 97, 100, 100, 105], [.reg .cpu .grt, .sym ',', .reg .cpu .grs, .sym ',', .imm .i16]),
  ([100, 97, 100, 100, 105], [.reg .cpu .grs, .sym ',', .imm .i16]),
  ([100, 115, 117, 98, 105], [.reg .cpu .grt, .sym ',', .reg .cpu .grs, .sym ',', .imm .i16]),
  ([100, 115, 117, 98, 105], [.reg .cpu .grs, .sym ',', .imm .i16]),
  ([100, 97, 100, 100, 105, 117], [.reg .cpu .grt, .sym ',', .reg .cpu .grs, .sym ',', .imm .i16]),
  ([100, 97, 100, 100, 105, 117], [.reg .cpu .grs, .sym ',', .imm .i16]),
  ([100, 115, 117, 98, 105, 117], [.reg .cpu .grt, .sym ',', .reg .cpu .grs, .sym ',', .imm .i16]),
  ([100, 115, 117, 98, 105, 117], [.reg .cpu .grs, .sym ',', .imm .i16]),
  ([108, 100, 108], [.reg .cpu .grt, .sym ',', .imm .i16, .sym '(', .reg .cpu .grs, .sym ')']),
  ([108, 100, 108], [.reg .cpu .grt, .sym ',', .sym '(', .reg .cpu .grs, .sym ')']),
  ([108, 100, 114], [.reg .cpu .grt, .sym ',', .imm .i16, .sym '(', .reg .cpu .grs, .sym ')']),
  ([108, 100, 114], [.reg .cpu .grt, .sym ',', .sym '(', .reg .cpu .grs, .sym ')']),
  ([108, 113], [.reg .cpu .grt, .sym ',', .imm .i16, .sym '(', .reg .cpu .grs, .sym ')']),
  ([108, 113], [.reg .cpu .grt, .sym ',', .sym '(', .reg .cpu .grs, .sym ')']),
  ([115, 113], [.reg .cpu .grt, .sym ',', .imm .i16, .sym '(', .reg .cpu .grs, .sym ')']),
  ([115, 113], [.reg .cpu .grt, .sym ',', .sym '(', .reg .cpu .grs, .sym ')']),
  ([108, 98], [.reg .cpu .grt, .sym ',', .imm .i16, .sym '(', .reg .cpu .grs, .sym ')']),
  ([108, 98], [.reg .cpu .grt, .sym ',', .sym '(', .reg .cpu .grs, .sym ')']),
  ([108, 104], [.reg .cpu .grt, .sym ',', .imm .i16, .sym '(', .reg .cpu .grs, .sym ')']),
  ([108, 104], [.reg .cpu .grt, .sym ',', .sym '(', .reg .cpu .grs, .sym ')']),
  ([108, 119, 108], [.reg .cpu .grt, .sym ',', .imm .i16, .sym '(', .reg .cpu .grs, .sym ')']),
  ([108, 119, 108], [.reg .cpu .grt, .sym ',', .sym '(', .reg .cpu .grs, .sym ')']),
  ([108, 119], [.reg .cpu .grt, .sym ',', .imm .i16, .sym '(', .reg .cpu .grs, .sym ')']),
  ([108, 119], [.reg .cpu .grt, .sym ',', .sym '(', .reg .cpu .grs, .sym ')']),
  ([108, 98, 117], [.reg .cpu .grt, .sym ',', .imm .i16, .sym '(', .reg .cpu .grs, .sym ')']),
  ([108, 98, 117], [.reg .cpu .grt, .sym ',', .sym '(', .reg .cpu .grs, .sym ')']),
  ([108, 104, 117], [.reg .cpu .grt, .sym ',', .imm .i16, .sym '(', .reg .cpu .grs, .sym ')']),
  ([108, 104, 117], [.reg .cpu .grt, .sym ',', .sym '(', .reg .cpu .grs, .sym ')']),
  ([108, 119, 114], [.reg .cpu .grt, .sym ',', .imm .i16, .sym '(', .reg .cpu .grs, .sym ')']),
  ([108, 119, 114], [.reg .cpu .grt, .sym ',', .sym '(', .reg .cpu .grs, .sym ')']),
  ([108, 119, 117], [.reg .cpu .grt, .sym ',', .imm .i16, .sym '(', .reg .cpu .grs, .sym ')']),
  ([108, 119, 117], [.reg .cpu .grt, .sym ',', .sym '(', .reg .cpu .grs, .sym ')']),
  ([115, 98], [.reg .cpu .grt, .sym ',', .imm .i16, .sym '(', .reg .cpu .grs, .sym ')']),
  ([115, 98], [.reg .cpu .grt, .sym ',', .sym '(', .reg .cpu .grs, .sym ')']),
  ([115, 104], [.reg .cpu .grt, .sym ',', .imm .i16, .sym '(', .reg .cpu .grs, .sym ')']),
  ([115, 104], [.reg .cpu .grt, .sym ',', .sym '(', .reg .cpu .grs, .sym ')']),
  ([115, 119, 108], [.reg .cpu .grt, .sym ',', .imm .i16, .sym '(', .reg .cpu .grs, .sym ')']),
  ([115, 119, 108], [.reg .cpu .grt, .sym ',', .sym '(', .reg .cpu .grs, .sym ')']),
  ([115, 119], [.reg .cpu .grt, .sym ',', .imm .i16, .sym '(', .reg .cpu .grs, .sym ')']),
  ([115, 119], [.reg .cpu .grt, .sym ',', .sym '(', .reg .cpu .grs, .sym ')']),
  ([115, 100, 108], [.reg .cpu .grt, .sym ',', .imm .i16, .sym '(', .reg .cpu .grs, .sym ')']),
  ([115, 100, 108], [.reg .cpu .grt, .sym ',', .sym '(', .reg .cpu .grs, .sym ')']),
  ([115, 100, 114], [.reg .cpu .grt, .sym ',', .imm .i16, .sym '(', .reg .cpu .grs, .sym ')']),
  ([115, 100, 114], [.reg .cpu .grt, .sym ',', .sym '(', .reg .cpu .grs, .sym ')']),
  ([115, 119, 114], [.reg .cpu .grt, .sym ',', .imm .i16, .sym '(', .reg .cpu .grs, .sym ')']),
  ([115, 119, 114], [.reg .cpu .grt, .sym ',', .sym '(', .reg .cpu .grs, .sym ')']),
  ([99, 97, 99, 104, 101], [.sec .cacheOp, .sym ',', .imm .i16, .sym '(', .reg .cpu .grs, .sym ')']),
  ([99, 97, 99, 104, 101], [.sec .cacheOp, .sym ',', .sym '(', .reg .cpu .grs, .sym ')']),
  ([108, 108], [.reg .cpu .grt, .sym ',', .imm .i16, .sym '(', .reg .cpu .grs, .sym ')']),
  ([108, 108], [.reg .cpu .grt, .sym ',', .sym '(', .reg .cpu .grs, .sym ')']),
  ([108, 119, 99, 49], [.reg .fpu .frt, .sym ',', .imm .i16, .sym '(', .reg .cpu .grs, .sym ')']),
  ([108, 119, 99, 49], [.reg .fpu .frt, .sym ',', .sym '(', .reg .cpu .grs, .sym ')']),
  ([108, 46, 115], [.reg .fpu .frt, .sym ',', .imm .i16, .sym '(', .reg .cpu .grs, .sym ')']),
  ([108, 46, 115], [.reg .fpu .frt, .sym ',', .sym '(', .reg .cpu .grs, .sym ')']),
  ([108, 119, 99, 50], [.reg .gteData .grt, .sym ',', .imm .i16, .sym '(', .reg .cpu .grs, .sym ')']),
  ([108, 119, 99, 50], [.reg .gteData .grt, .sym ',', .sym '(', .reg .cpu .grs, .sym ')']),
  ([108, 118, 46, 115], [.vec .same .vrt, .sym ',', .imm .i16, .sym '(', .reg .cpu .grs, .sym ')']),
  ([108, 118, 46, 115], [.vec .same .vrt, .sym ',', .sym '(', .reg .cpu .grs, .sym ')']),
  ([108, 108, 100], [.reg .cpu .grt, .sym ',', .imm .i16, .sym '(', .reg .cpu .grs, .sym ')']),
  ([108, 108, 100], [.reg .cpu .grt, .sym ',', .sym '(', .reg .cpu .grs, .sym ')']),
  ([108, 100, 99, 49], [.reg .fpu .frt, .sym ',', .imm .i16, .sym '(', .reg .cpu .grs, .sym ')']),
  ([108, 100, 99, 49], [.reg .fpu .frt, .sym ',', .sym '(', .reg .cpu .grs, .sym ')']),
  ([108, 46, 100], [.reg .fpu .frt, .sym ',', .imm .i16, .sym '(', .reg .cpu .grs, .sym ')']),
  ([108, 46, 100], [.reg .fpu .frt, .sym ',', .sym '(', .reg .cpu .grs, .sym ')']),
  ([117, 108, 118, 46, 113], [.vec .same .vrt, .sym ',', .imm .i16, .sym '(', .reg .cpu .grs, .sym ')'])]

/-- Names and syntax of the rows 100 to 199. -/
def rowTable1 : List (List Nat × List Elem) := [
  ([117, 108, 118, 46, 113], [.vec .same .vrt, .sym ',', .sym '(', .reg .cpu .grs, .sym ')']),
  ([108, 118, 108, 46, 113], [.vec .same .vrt, .sym ',', .imm .i16, .sym '(', .reg .cpu .grs, .sym ')']),
  ([108, 118, 108, 46, 113], [.vec .same .vrt, .sym ',', .sym '(', .reg .cpu .grs, .sym ')']),
  ([108, 118, 114, 46, 113], [.vec .same .vrt, .sym ',', .imm .i16, .sym '(', .reg .cpu .grs, .sym ')']),
  ([108, 118, 114, 46, 113], [.vec .same .vrt, .sym ',', .sym '(', .reg .cpu .grs, .sym ')']),
  ([108, 118, 46, 113], [.vec .same .vrt, .sym ',', .imm .i16, .sym '(', .reg .cpu .grs, .sym ')']),
  ([108, 118, 46, 113], [.vec .same .vrt, .sym ',', .sym '(', .reg .cpu .grs, .sym ')']),
  ([108, 113, 99, 50], [.reg .ps2 .ps2vrt, .sym ',', .imm .i16, .sym '(', .reg .cpu .grs, .sym ')']),
  ([108, 100], [.reg .cpu .grt, .sym ',', .imm .i16, .sym '(', .reg .cpu .grs, .sym ')']),
  ([108, 100], [.reg .cpu .grt, .sym ',', .sym '(', .reg .cpu .grs, .sym ')']),
  ([115, 99], [.reg .cpu .grt, .sym ',', .imm .i16, .sym '(', .reg .cpu .grs, .sym ')']),
  ([115, 99], [.reg .cpu .grt, .sym ',', .sym '(', .reg .cpu .grs, .sym ')']),
  ([115, 119, 99, 49], [.reg .fpu .frt, .sym ',', .imm .i16, .sym '(', .reg .cpu .grs, .sym ')']),
  ([115, 119, 99, 49], [.reg .fpu .frt, .sym ',', .sym '(', .reg .cpu .grs, .sym ')']),
  ([115, 46, 115], [.reg .fpu .frt, .sym ',', .imm .i16, .sym '(', .reg .cpu .grs, .sym ')']),
  ([115, 46, 115], [.reg .fpu .frt, .sym ',', .sym '(', .reg .cpu .grs, .sym ')']),
  ([115, 119, 99, 50], [.reg .gteData .grt, .sym ',', .imm .i16, .sym '(', .reg .cpu .grs, .sym ')']),
  ([115, 119, 99, 50], [.reg .gteData .grt, .sym ',', .sym '(', .reg .cpu .grs, .sym ')']),
  ([115, 118, 46, 115], [.vec .same .vrt, .sym ',', .imm .i16, .sym '(', .reg .cpu .grs, .sym ')']),
  ([115, 118, 46, 115], [.vec .same .vrt, .sym ',', .sym '(', .reg .cpu .grs, .sym ')']),
  ([115, 99, 100], [.reg .cpu .grt, .sym ',', .imm .i16, .sym '(', .reg .cpu .grs, .sym ')']),
  ([115, 99, 100], [.reg .cpu .grt, .sym ',', .sym '(', .reg .cpu .grs, .sym ')']),
  ([115, 100, 99, 49], [.reg .fpu .frt, .sym ',', .imm .i16, .sym '(', .reg .cpu .grs, .sym ')']),
  ([115, 100, 99, 49], [.reg .fpu .frt, .sym ',', .sym '(', .reg .cpu .grs, .sym ')']),
  ([115, 46, 100], [.reg .fpu .frt, .sym ',', .imm .i16, .sym '(', .reg .cpu .grs, .sym ')']),
  ([115, 46, 100], [.reg .fpu .frt, .sym ',', .sym '(', .reg .cpu .grs, .sym ')']),
  ([117, 115, 118, 46, 113], [.vec .same .vrt, .sym ',', .imm .i16, .sym '(', .reg .cpu .grs, .sym ')']),
  ([117, 115, 118, 46, 113], [.vec .same .vrt, .sym ',', .sym '(', .reg .cpu .grs, .sym ')']),
  ([115, 118, 108, 46, 113], [.vec .same .vrt, .sym ',', .imm .i16, .sym '(', .reg .cpu .grs, .sym ')']),
  ([115, 118, 108, 46, 113], [.vec .same .vrt, .sym ',', .sym '(', .reg .cpu .grs, .sym ')']),
  ([115, 118, 114, 46, 113], [.vec .same .vrt, .sym ',', .imm .i16, .sym '(', .reg .cpu .grs, .sym ')']),
  ([115, 118, 114, 46, 113], [.vec .same .vrt, .sym ',', .sym '(', .reg .cpu .grs, .sym ')']),
  ([115, 118, 46, 113], [.vec .same .vrt, .sym ',', .imm .i16, .sym '(', .reg .cpu .grs, .sym ')', .sym ',', .wb]),
  ([115, 118, 46, 113], [.vec .same .vrt, .sym ',', .sym '(', .reg .cpu .grs, .sym ')', .sym ',', .wb]),
  ([115, 118, 46, 113], [.vec .same .vrt, .sym ',', .imm .i16, .sym '(', .reg .cpu .grs, .sym ')']),
  ([115, 118, 46, 113], [.vec .same .vrt, .sym ',', .sym '(', .reg .cpu .grs, .sym ')']),
  ([115, 113, 99, 50], [.reg .ps2 .ps2vrt, .sym ',', .imm .i16, .sym '(', .reg .cpu .grs, .sym ')']),
  ([115, 100], [.reg .cpu .grt, .sym ',', .imm .i16, .sym '(', .reg .cpu .grs, .sym ')']),
  ([115, 100], [.reg .cpu .grt, .sym ',', .sym '(', .reg .cpu .grs, .sym ')']),
  ([115, 108, 108], [.reg .cpu .grd, .sym ',', .reg .cpu .grt, .sym ',', .imm .i5]),
  ([115, 108, 108], [.reg .cpu .grd, .sym ',', .imm .i5]),
  ([110, 111, 112], []),
  ([115, 114, 108], [.reg .cpu .grd, .sym ',', .reg .cpu .grt, .sym ',', .imm .i5]),
  ([115, 114, 108], [.reg .cpu .grd, .sym ',', .imm .i5]),
  ([114, 111, 116, 114], [.reg .cpu .grd, .sym ',', .reg .cpu .grt, .sym ',', .imm .i5]),
  ([114, 111, 116, 114], [.reg .cpu .grd, .sym ',', .imm .i5]),
  ([115, 114, 97], [.reg .cpu .grd, .sym ',', .reg .cpu .grt, .sym ',', .imm .i5]),
  ([115, 114, 97], [.reg .cpu .grd, .sym ',', .imm .i5]),
  ([115, 108, 108, 118], [.reg .cpu .grd, .sym ',', .reg .cpu .grt, .sym ',', .reg .cpu .grs]),
  ([115, 108, 108, 118], [.reg .cpu .grd, .sym ',', .reg .cpu .grs]),
  ([115, 114, 108, 118], [.reg .cpu .grd, .sym ',', .reg .cpu .grt, .sym ',', .reg .cpu .grs]),
  ([115, 114, 108, 118], [.reg .cpu .grd, .sym ',', .reg .cpu .grs]),
  ([114, 111, 116, 114, 118], [.reg .cpu .grd, .sym ',', .reg .cpu .grt, .sym ',', .reg .cpu .grs]),
  ([114, 111, 116, 114, 118], [.reg .cpu .grd, .sym ',', .reg .cpu .grs]),
  ([115, 114, 97, 118], [.reg .cpu .grd, .sym ',', .reg .cpu .grt, .sym ',', .reg .cpu .grs]),
  ([115, 114, 97, 118], [.reg .cpu .grd, .sym ',', .reg .cpu .grs]),
  ([106, 114], [.reg .cpu .grs]),
  ([106, 97, 108, 114], [.reg .cpu .grs, .sym ',', .reg .cpu .grd]),
  ([106, 97, 108, 114], [.reg .cpu .grs]),
  ([109, 111, 118, 122], [.reg .cpu .grd, .sym ',', .reg .cpu .grs, .sym ',', .reg .cpu .grt]),
  ([109, 111, 118, 110], [.reg .cpu .grd, .sym ',', .reg .cpu .grs, .sym ',', .reg .cpu .grt]),
  ([115, 121, 115, 99, 97, 108, 108], [.imm .i20]),
  ([115, 121, 115, 99, 97, 108, 108], []),
  ([98, 114, 101, 97, 107], [.imm .i20]),
  ([98, 114, 101, 97, 107], []),
  ([115, 121, 110, 99], []),
  ([109, 102, 104, 105], [.reg .cpu .grd]),
  ([109, 116, 104, 105], [.reg .cpu .grs]),
  ([109, 102, 108, 111], [.reg .cpu .grd]),
  ([109, 116, 108, 111], [.reg .cpu .grs]),
  ([100, 115, 108, 108, 118], [.reg .cpu .grd, .sym ',', .reg .cpu .grt, .sym ',', .reg .cpu .grs]),
  ([100, 115, 108, 108, 118], [.reg .cpu .grd, .sym ',', .reg .cpu .grs]),
  ([100, 115, 114, 108, 118], [.reg .cpu .grd, .sym ',', .reg .cpu .grt, .sym ',', .reg .cpu .grs]),
  ([100, 115, 114, 108, 118], [.reg .cpu .grd, .sym ',', .reg .cpu .grs]),
  ([99, 108, 122], [.reg .cpu .grd, .sym ',', .reg .cpu .grs]),
  ([100, 115, 114, 97, 118], [.reg .cpu .grd, .sym ',', .reg .cpu .grt, .sym ',', .reg .cpu .grs]),
  ([100, 115, 114, 97, 118], [.reg .cpu .grd, .sym ',', .reg .cpu .grs]),
  ([99, 108, 111], [.reg .cpu .grd, .sym ',', .reg .cpu .grs]),
  ([109, 117, 108, 116], [.reg .cpu .grd, .sym ',', .reg .cpu .grs, .sym ',', .reg .cpu .grt]),
  ([109, 117, 108, 116, 117], [.reg .cpu .grd, .sym ',', .reg .cpu .grs, .sym ',', .reg .cpu .grt]),
  ([109, 117, 108, 116], [.reg .cpu .grs, .sym ',', .reg .cpu .grt]),
  ([109, 117, 108, 116], [.forced 0, .sym ',', .reg .cpu .grs, .sym ',', .reg .cpu .grt]),
  ([109, 117, 108, 116, 117], [.reg .cpu .grs, .sym ',', .reg .cpu .grt]),
  ([109, 117, 108, 116, 117], [.forced 0, .sym ',', .reg .cpu .grs, .sym ',', .reg .cpu .grt]),
  ([100, 105, 118], [.reg .cpu .grs, .sym ',', .reg .cpu .grt]),
  ([100, 105, 118], [.forced 0, .sym ',', .reg .cpu .grs, .sym ',', .reg .cpu .grt]),
  ([100, 105, 118, 117], [.reg .cpu .grs, .sym ',', .reg .cpu .grt]),
  ([100, 105, 118, 117], [.forced 0, .sym ',', .reg .cpu .grs, .sym ',', .reg .cpu .grt]),
  ([100, 109, 117, 108, 116], [.reg .cpu .grs, .sym ',', .reg .cpu .grt]),
  ([100, 109, 117, 108, 116], [.forced 0, .sym ',', .reg .cpu .grs, .sym ',', .reg .cpu .grt]),
  ([109, 97, 100, 100], [.reg .cpu .grs, .sym ',', .reg .cpu .grt]),
  ([100, 109, 117, 108, 116, 117], [.reg .cpu .grs, .sym ',', .reg .cpu .grt]),
  ([100, 109, 117, 108, 116, 117], [.forced 0, .sym ',', .reg .cpu .grs, .sym ',', .reg .cpu .grt]),
  ([109, 97, 100, 100, 117], [.reg .cpu .grs, .sym ',', .reg .cpu .grt]),
  ([100, 100, 105, 118], [.reg .cpu .grs, .sym ',', .reg .cpu .grt]),
  ([100, 100, 105, 118], [.forced 0, .sym ',', .reg .cpu .grs, .sym ',', .reg .cpu .grt]),
  ([100, 100, 105, 118, 117], [.reg .cpu .grs, .sym ',', .reg .cpu .grt]),
  ([100, 100, 105, 118, 117], [.forced 0, .sym ',', .reg .cpu .grs, .sym ',', .reg .cpu .grt]),
  ([97, 100, 100], [.reg .cpu .grd, .sym ',', .reg .cpu .grs, .sym ',', .reg .cpu .grt]),
  ([97, 100, 100], [.reg .cpu .grs, .sym ',', .reg .cpu .grt])]

/-- Names and syntax of the rows 200 to 299. -/
def rowTable2 : List (List Nat × List Elem) := [
  ([97, 100, 100, 117], [.reg .cpu .grd, .sym ',', .reg .cpu .grs, .sym ',', .reg .cpu .grt]),
  ([97, 100, 100, 117], [.reg .cpu .grs, .sym ',', .reg .cpu .grt]),
  ([109, 111, 118, 101], [.reg .cpu .grd, .sym ',', .reg .cpu .grs]),
  ([99, 108, 101, 97, 114], [.reg .cpu .grd]),
  ([115, 117, 98], [.reg .cpu .grd, .sym ',', .reg .cpu .grs, .sym ',', .reg .cpu .grt]),
  ([115, 117, 98], [.reg .cpu .grs, .sym ',', .reg .cpu .grt]),
  ([110, 101, 103], [.reg .cpu .grd, .sym ',', .reg .cpu .grt]),
  ([115, 117, 98, 117], [.reg .cpu .grd, .sym ',', .reg .cpu .grs, .sym ',', .reg .cpu .grt]),
  ([115, 117, 98, 117], [.reg .cpu .grs, .sym ',', .reg .cpu .grt]),
  ([110, 101, 103, 117], [.reg .cpu .grd, .sym ',', .reg .cpu .grt]),
  ([97, 110, 100], [.reg .cpu .grd, .sym ',', .reg .cpu .grs, .sym ',', .reg .cpu .grt]),
  ([97, 110, 100], [.reg .cpu .grs, .sym ',', .reg .cpu .grt]),
  ([111, 114], [.reg .cpu .grd, .sym ',', .reg .cpu .grs, .sym ',', .reg .cpu .grt]),
  ([111, 114], [.reg .cpu .grs, .sym ',', .reg .cpu .grt]),
  ([120, 111, 114], [.reg .cpu .grd, .sym ',', .reg .cpu .grs, .sym ',', .reg .cpu .grt]),
  ([101, 111, 114], [.reg .cpu .grd, .sym ',', .reg .cpu .grs, .sym ',', .reg .cpu .grt]),
  ([120, 111, 114], [.reg .cpu .grs, .sym ',', .reg .cpu .grt]),
  ([101, 111, 114], [.reg .cpu .grs, .sym ',', .reg .cpu .grt]),
  ([110, 111, 114], [.reg .cpu .grd, .sym ',', .reg .cpu .grs, .sym ',', .reg .cpu .grt]),
  ([110, 111, 114], [.reg .cpu .grs, .sym ',', .reg .cpu .grt]),
  ([110, 111, 116], [.reg .cpu .grd, .sym ',', .reg .cpu .grs]),
  ([109, 102, 115, 97], [.reg .cpu .grd]),
  ([109, 116, 115, 97], [.reg .cpu .grs]),
  ([115, 108, 116], [.reg .cpu .grd, .sym ',', .reg .cpu .grs, .sym ',', .reg .cpu .grt]),
  ([115, 108, 116], [.reg .cpu .grs, .sym ',', .reg .cpu .grt]),
  ([115, 103, 116], [.reg .cpu .grd, .sym ',', .reg .cpu .grt, .sym ',', .reg .cpu .grs]),
  ([115, 103, 116], [.reg .cpu .grd, .sym ',', .reg .cpu .grs]),
  ([115, 108, 116, 117], [.reg .cpu .grd, .sym ',', .reg .cpu .grs, .sym ',', .reg .cpu .grt]),
  ([115, 108, 116, 117], [.reg .cpu .grs, .sym ',', .reg .cpu .grt]),
  ([115, 103, 116, 117], [.reg .cpu .grd, .sym ',', .reg .cpu .grt, .sym ',', .reg .cpu .grs]),
  ([115, 103, 116, 117], [.reg .cpu .grd, .sym ',', .reg .cpu .grs]),
  ([100, 97, 100, 100], [.reg .cpu .grd, .sym ',', .reg .cpu .grs, .sym ',', .reg .cpu .grt]),
  ([100, 97, 100, 100], [.reg .cpu .grs, .sym ',', .reg .cpu .grt]),
  ([109, 97, 120], [.reg .cpu .grd, .sym ',', .reg .cpu .grs, .sym ',', .reg .cpu .grt]),
  ([100, 97, 100, 100, 117], [.reg .cpu .grd, .sym ',', .reg .cpu .grs, .sym ',', .reg .cpu .grt]),
  ([100, 97, 100, 100, 117], [.reg .cpu .grs, .sym ',', .reg .cpu .grt]),
  ([100, 109, 111, 118, 101], [.reg .cpu .grd, .sym ',', .reg .cpu .grs]),
  ([109, 105, 110], [.reg .cpu .grd, .sym ',', .reg .cpu .grs, .sym ',', .reg .cpu .grt]),
  ([100, 115, 117, 98], [.reg .cpu .grd, .sym ',', .reg .cpu .grs, .sym ',', .reg .cpu .grt]),
  ([100, 115, 117, 98], [.reg .cpu .grs, .sym ',', .reg .cpu .grt]),
  ([100, 110, 101, 103], [.reg .cpu .grd, .sym ',', .reg .cpu .grt]),
  ([109, 115, 117, 98], [.reg .cpu .grs, .sym ',', .reg .cpu .grt]),
  ([100, 115, 117, 98, 117], [.reg .cpu .grd, .sym ',', .reg .cpu .grs, .sym ',', .reg .cpu .grt]),
  ([100, 115, 117, 98, 117], [.reg .cpu .grs, .sym ',', .reg .cpu .grt]),
  ([100, 110, 101, 103, 117], [.reg .cpu .grd, .sym ',', .reg .cpu .grt]),
  ([109, 115, 117, 98, 117], [.reg .cpu .grs, .sym ',', .reg .cpu .grt]),
  ([116, 103, 101], [.reg .cpu .grs, .sym ',', .reg .cpu .grt, .sym ',', .imm .i10]),
  ([116, 103, 101], [.reg .cpu .grs, .sym ',', .reg .cpu .grt]),
  ([116, 103, 101, 117], [.reg .cpu .grs, .sym ',', .reg .cpu .grt, .sym ',', .imm .i10]),
  ([116, 103, 101, 117], [.reg .cpu .grs, .sym ',', .reg .cpu .grt]),
  ([116, 108, 116], [.reg .cpu .grs, .sym ',', .reg .cpu .grt, .sym ',', .imm .i10]),
  ([116, 108, 116], [.reg .cpu .grs, .sym ',', .reg .cpu .grt]),
  ([116, 108, 116, 117], [.reg .cpu .grs, .sym ',', .reg .cpu .grt, .sym ',', .imm .i10]),
  ([116, 108, 116, 117], [.reg .cpu .grs, .sym ',', .reg .cpu .grt]),
  ([116, 101, 113], [.reg .cpu .grs, .sym ',', .reg .cpu .grt, .sym ',', .imm .i10]),
  ([116, 101, 113], [.reg .cpu .grs, .sym ',', .reg .cpu .grt]),
  ([116, 110, 101], [.reg .cpu .grs, .sym ',', .reg .cpu .grt, .sym ',', .imm .i10]),
  ([116, 110, 101], [.reg .cpu .grs, .sym ',', .reg .cpu .grt]),
  ([100, 115, 108, 108], [.reg .cpu .grd, .sym ',', .reg .cpu .grt, .sym ',', .imm .i5]),
  ([100, 115, 108, 108], [.reg .cpu .grd, .sym ',', .imm .i5]),
  ([100, 115, 114, 108], [.reg .cpu .grd, .sym ',', .reg .cpu .grt, .sym ',', .imm .i5]),
  ([100, 115, 114, 108], [.reg .cpu .grd, .sym ',', .imm .i5]),
  ([100, 115, 114, 97], [.reg .cpu .grd, .sym ',', .reg .cpu .grt, .sym ',', .imm .i5]),
  ([100, 115, 114, 97], [.reg .cpu .grd, .sym ',', .imm .i5]),
  ([100, 115, 108, 108, 51, 50], [.reg .cpu .grd, .sym ',', .reg .cpu .grt, .sym ',', .imm .i5]),
  ([100, 115, 108, 108, 51, 50], [.reg .cpu .grd, .sym ',', .imm .i5]),
  ([100, 115, 114, 108, 51, 50], [.reg .cpu .grd, .sym ',', .reg .cpu .grt, .sym ',', .imm .i5]),
  ([100, 115, 114, 108, 51, 50], [.reg .cpu .grd, .sym ',', .imm .i5]),
  ([100, 115, 114, 97, 51, 50], [.reg .cpu .grd, .sym ',', .reg .cpu .grt, .sym ',', .imm .i5]),
  ([100, 115, 114, 97, 51, 50], [.reg .cpu .grd, .sym ',', .imm .i5]),
  ([98, 108, 116, 122], [.reg .cpu .grs, .sym ',', .imm .i16]),
  ([98, 103, 101, 122], [.reg .cpu .grs, .sym ',', .imm .i16]),
  ([98, 108, 116, 122, 108], [.reg .cpu .grs, .sym ',', .imm .i16]),
  ([98, 103, 101, 122, 108], [.reg .cpu .grs, .sym ',', .imm .i16]),
  ([116, 103, 101, 105], [.reg .cpu .grs, .sym ',', .imm .i16]),
  ([116, 103, 101, 105, 117], [.reg .cpu .grs, .sym ',', .imm .i16]),
  ([116, 108, 116, 105], [.reg .cpu .grs, .sym ',', .imm .i16]),
  ([116, 108, 116, 105, 117], [.reg .cpu .grs, .sym ',', .imm .i16]),
  ([116, 101, 113, 105], [.reg .cpu .grs, .sym ',', .imm .i16]),
  ([116, 110, 101, 105], [.reg .cpu .grs, .sym ',', .imm .i16]),
  ([98, 108, 116, 122, 97, 108], [.reg .cpu .grs, .sym ',', .imm .i16]),
  ([98, 103, 101, 122, 97, 108], [.reg .cpu .grs, .sym ',', .imm .i16]),
  ([98, 97, 108], [.imm .i16]),
  ([98, 108, 116, 122, 97, 108, 108], [.reg .cpu .grs, .sym ',', .imm .i16]),
  ([98, 103, 101, 122, 97, 108, 108], [.reg .cpu .grs, .sym ',', .imm .i16]),
  ([109, 116, 115, 97, 98], [.reg .cpu .grs, .sym ',', .imm .i16]),
  ([109, 116, 115, 97, 104], [.reg .cpu .grs, .sym ',', .imm .i16]),
  ([109, 102, 99, 48], [.reg .cpu .grt, .sym ',', .reg .cop0 .grd]),
  ([109, 102, 99, 48], [.reg .cpu .grt, .sym ',', .reg .rspCop0 .grd]),
  ([100, 109, 102, 99, 48], [.reg .cpu .grt, .sym ',', .reg .cop0 .grd]),
  ([109, 116, 99, 48], [.reg .cpu .grt, .sym ',', .reg .cop0 .grd]),
  ([109, 116, 99, 48], [.reg .cpu .grt, .sym ',', .reg .rspCop0 .grd]),
  ([100, 109, 116, 99, 48], [.reg .cpu .grt, .sym ',', .reg .cop0 .grd]),
  ([116, 108, 98, 114], []),
  ([116, 108, 98, 119, 105], []),
  ([116, 108, 98, 119, 114], []),
  ([116, 108, 98, 112], []),
  ([114, 102, 101], []),
  ([101, 114, 101, 116], []),
  ([109, 102, 99, 49], [.reg .cpu .grt, .sym ',', .reg .fpu .frs])]

/-- Names and syntax of the rows 300 to 399. -/
def rowTable3 : List (List Nat × List Elem) := [
  ([100, 109, 102, 99, 49], [.reg .cpu .grt, .sym ',', .reg .fpu .frs]),
  ([99, 102, 99, 49], [.reg .cpu .grt, .sym ',', .reg .fpuControl .frs]),
  ([109, 116, 99, 49], [.reg .cpu .grt, .sym ',', .reg .fpu .frs]),
  ([100, 109, 116, 99, 49], [.reg .cpu .grt, .sym ',', .reg .fpu .frs]),
  ([99, 116, 99, 49], [.reg .cpu .grt, .sym ',', .reg .fpuControl .frs]),
  ([98, 99, 49, 102], [.imm .i16]),
  ([98, 99, 49, 116], [.imm .i16]),
  ([98, 99, 49, 102, 108], [.imm .i16]),
  ([98, 99, 49, 116, 108], [.imm .i16]),
  ([97, 100, 100, 46, 115], [.reg .fpu .frd, .sym ',', .reg .fpu .frs, .sym ',', .reg .fpu .frt]),
  ([97, 100, 100, 46, 115], [.reg .fpu .frs, .sym ',', .reg .fpu .frt]),
  ([115, 117, 98, 46, 115], [.reg .fpu .frd, .sym ',', .reg .fpu .frs, .sym ',', .reg .fpu .frt]),
  ([115, 117, 98, 46, 115], [.reg .fpu .frs, .sym ',', .reg .fpu .frt]),
  ([109, 117, 108, 46, 115], [.reg .fpu .frd, .sym ',', .reg .fpu .frs, .sym ',', .reg .fpu .frt]),
  ([109, 117, 108, 46, 115], [.reg .fpu .frs, .sym ',', .reg .fpu .frt]),
  ([100, 105, 118, 46, 115], [.reg .fpu .frd, .sym ',', .reg .fpu .frs, .sym ',', .reg .fpu .frt]),
  ([100, 105, 118, 46, 115], [.reg .fpu .frs, .sym ',', .reg .fpu .frt]),
  ([115, 113, 114, 116, 46, 115], [.reg .fpu .frd, .sym ',', .reg .fpu .frs]),
  ([97, 98, 115, 46, 115], [.reg .fpu .frd, .sym ',', .reg .fpu .frs]),
  ([109, 111, 118, 46, 115], [.reg .fpu .frd, .sym ',', .reg .fpu .frs]),
  ([110, 101, 103, 46, 115], [.reg .fpu .frd, .sym ',', .reg .fpu .frs]),
  ([114, 111, 117, 110, 100, 46, 108, 46, 115], [.reg .fpu .frd, .sym ',', .reg .fpu .frs]),
  ([116, 114, 117, 110, 99, 46, 108, 46, 115], [.reg .fpu .frd, .sym ',', .reg .fpu .frs]),
  ([99, 101, 105, 108, 46, 108, 46, 115], [.reg .fpu .frd, .sym ',', .reg .fpu .frs]),
  ([102, 108, 111, 111, 114, 46, 108, 46, 115], [.reg .fpu .frd, .sym ',', .reg .fpu .frs]),
  ([114, 111, 117, 110, 100, 46, 119, 46, 115], [.reg .fpu .frd, .sym ',', .reg .fpu .frs]),
  ([116, 114, 117, 110, 99, 46, 119, 46, 115], [.reg .fpu .frd, .sym ',', .reg .fpu .frs]),
  ([99, 101, 105, 108, 46, 119, 46, 115], [.reg .fpu .frd, .sym ',', .reg .fpu .frs]),
  ([102, 108, 111, 111, 114, 46, 119, 46, 115], [.reg .fpu .frd, .sym ',', .reg .fpu .frs]),
  ([114, 115, 113, 114, 116, 46, 119, 46, 115], [.reg .fpu .frd, .sym ',', .reg .fpu .frs]),
  ([97, 100, 100, 97, 46, 115], [.reg .fpu .frs, .sym ',', .reg .fpu .frt]),
  ([115, 117, 98, 97, 46, 115], [.reg .fpu .frs, .sym ',', .reg .fpu .frt]),
  ([109, 117, 108, 97, 46, 115], [.reg .fpu .frs, .sym ',', .reg .fpu .frt]),
  ([109, 97, 100, 100, 46, 115], [.reg .fpu .frd, .sym ',', .reg .fpu .frs, .sym ',', .reg .fpu .frt]),
  ([109, 97, 100, 100, 46, 115], [.reg .fpu .frs, .sym ',', .reg .fpu .frt]),
  ([109, 115, 117, 98, 46, 115], [.reg .fpu .frd, .sym ',', .reg .fpu .frs, .sym ',', .reg .fpu .frt]),
  ([109, 115, 117, 98, 46, 115], [.reg .fpu .frs, .sym ',', .reg .fpu .frt]),
  ([109, 97, 100, 100, 97, 46, 115], [.reg .fpu .frs, .sym ',', .reg .fpu .frt]),
  ([109, 115, 117, 98, 97, 46, 115], [.reg .fpu .frs, .sym ',', .reg .fpu .frt]),
  ([99, 118, 116, 46, 100, 46, 115], [.reg .fpu .frd, .sym ',', .reg .fpu .frs]),
  ([99, 118, 116, 46, 119, 46, 115], [.reg .fpu .frd, .sym ',', .reg .fpu .frs]),
  ([99, 118, 116, 46, 108, 46, 115], [.reg .fpu .frd, .sym ',', .reg .fpu .frs]),
  ([109, 97, 120, 46, 115], [.reg .fpu .frd, .sym ',', .reg .fpu .frs, .sym ',', .reg .fpu .frt]),
  ([109, 105, 110, 46, 115], [.reg .fpu .frd, .sym ',', .reg .fpu .frs, .sym ',', .reg .fpu .frt]),
  ([99, 46, 102, 46, 115], [.reg .fpu .frs, .sym ',', .reg .fpu .frt]),
  ([99, 46, 117, 110, 46, 115], [.reg .fpu .frs, .sym ',', .reg .fpu .frt]),
  ([99, 46, 101, 113, 46, 115], [.reg .fpu .frs, .sym ',', .reg .fpu .frt]),
  ([99, 46, 117, 101, 113, 46, 115], [.reg .fpu .frs, .sym ',', .reg .fpu .frt]),
  ([99, 46, 111, 108, 116, 46, 115], [.reg .fpu .frs, .sym ',', .reg .fpu .frt]),
  ([99, 46, 108, 116, 46, 115], [.reg .fpu .frs, .sym ',', .reg .fpu .frt]),
  ([99, 46, 117, 108, 116, 46, 115], [.reg .fpu .frs, .sym ',', .reg .fpu .frt]),
  ([99, 46, 111, 108, 101, 46, 115], [.reg .fpu .frs, .sym ',', .reg .fpu .frt]),
  ([99, 46, 108, 101, 46, 115], [.reg .fpu .frs, .sym ',', .reg .fpu .frt]),
  ([99, 46, 117, 108, 101, 46, 115], [.reg .fpu .frs, .sym ',', .reg .fpu .frt]),
  ([99, 46, 115, 102, 46, 115], [.reg .fpu .frs, .sym ',', .reg .fpu .frt]),
  ([99, 46, 110, 103, 108, 101, 46, 115], [.reg .fpu .frs, .sym ',', .reg .fpu .frt]),
  ([99, 46, 115, 101, 113, 46, 115], [.reg .fpu .frs, .sym ',', .reg .fpu .frt]),
  ([99, 46, 110, 103, 108, 46, 115], [.reg .fpu .frs, .sym ',', .reg .fpu .frt]),
  ([99, 46, 108, 116, 46, 115], [.reg .fpu .frs, .sym ',', .reg .fpu .frt]),
  ([99, 46, 110, 103, 101, 46, 115], [.reg .fpu .frs, .sym ',', .reg .fpu .frt]),
  ([99, 46, 108, 101, 46, 115], [.reg .fpu .frs, .sym ',', .reg .fpu .frt]),
  ([99, 46, 110, 103, 116, 46, 115], [.reg .fpu .frs, .sym ',', .reg .fpu .frt]),
  ([97, 100, 100, 46, 100], [.reg .fpu .frd, .sym ',', .reg .fpu .frs, .sym ',', .reg .fpu .frt]),
  ([97, 100, 100, 46, 100], [.reg .fpu .frs, .sym ',', .reg .fpu .frt]),
  ([115, 117, 98, 46, 100], [.reg .fpu .frd, .sym ',', .reg .fpu .frs, .sym ',', .reg .fpu .frt]),
  ([115, 117, 98, 46, 100], [.reg .fpu .frs, .sym ',', .reg .fpu .frt]),
  ([109, 117, 108, 46, 100], [.reg .fpu .frd, .sym ',', .reg .fpu .frs, .sym ',', .reg .fpu .frt]),
  ([109, 117, 108, 46, 100], [.reg .fpu .frs, .sym ',', .reg .fpu .frt]),
  ([100, 105, 118, 46, 100], [.reg .fpu .frd, .sym ',', .reg .fpu .frs, .sym ',', .reg .fpu .frt]),
  ([100, 105, 118, 46, 100], [.reg .fpu .frs, .sym ',', .reg .fpu .frt]),
  ([115, 113, 114, 116, 46, 100], [.reg .fpu .frd, .sym ',', .reg .fpu .frs]),
  ([97, 98, 115, 46, 100], [.reg .fpu .frd, .sym ',', .reg .fpu .frs]),
  ([109, 111, 118, 46, 100], [.reg .fpu .frd, .sym ',', .reg .fpu .frs]),
  ([110, 101, 103, 46, 100], [.reg .fpu .frd, .sym ',', .reg .fpu .frs]),
  ([114, 111, 117, 110, 100, 46, 108, 46, 100], [.reg .fpu .frd, .sym ',', .reg .fpu .frs]),
  ([116, 114, 117, 110, 99, 46, 108, 46, 100], [.reg .fpu .frd, .sym ',', .reg .fpu .frs]),
  ([99, 101, 105, 108, 46, 108, 46, 100], [.reg .fpu .frd, .sym ',', .reg .fpu .frs]),
  ([102, 108, 111, 111, 114, 46, 108, 46, 100], [.reg .fpu .frd, .sym ',', .reg .fpu .frs]),
  ([114, 111, 117, 110, 100, 46, 119, 46, 100], [.reg .fpu .frd, .sym ',', .reg .fpu .frs]),
  ([116, 114, 117, 110, 99, 46, 119, 46, 100], [.reg .fpu .frd, .sym ',', .reg .fpu .frs]),
  ([99, 101, 105, 108, 46, 119, 46, 100], [.reg .fpu .frd, .sym ',', .reg .fpu .frs]),
  ([102, 108, 111, 111, 114, 46, 119, 46, 100], [.reg .fpu .frd, .sym ',', .reg .fpu .frs]),
  ([99, 118, 116, 46, 115, 46, 100], [.reg .fpu .frd, .sym ',', .reg .fpu .frs]),
  ([99, 118, 116, 46, 119, 46, 100], [.reg .fpu .frd, .sym ',', .reg .fpu .frs]),
  ([99, 118, 116, 46, 108, 46, 100], [.reg .fpu .frd, .sym ',', .reg .fpu .frs]),
  ([99, 46, 102, 46, 100], [.reg .fpu .frs, .sym ',', .reg .fpu .frt]),
  ([99, 46, 117, 110, 46, 100], [.reg .fpu .frs, .sym ',', .reg .fpu .frt]),
  ([99, 46, 101, 113, 46, 100], [.reg .fpu .frs, .sym ',', .reg .fpu .frt]),
  ([99, 46, 117, 101, 113, 46, 100], [.reg .fpu .frs, .sym ',', .reg .fpu .frt]),
  ([99, 46, 111, 108, 116, 46, 100], [.reg .fpu .frs, .sym ',', .reg .fpu .frt]),
  ([99, 46, 117, 108, 116, 46, 100], [.reg .fpu .frs, .sym ',', .reg .fpu .frt]),
  ([99, 46, 111, 108, 101, 46, 100], [.reg .fpu .frs, .sym ',', .reg .fpu .frt]),
  ([99, 46, 117, 108, 101, 46, 100], [.reg .fpu .frs, .sym ',', .reg .fpu .frt]),
  ([99, 46, 115, 102, 46, 100], [.reg .fpu .frs, .sym ',', .reg .fpu .frt]),
  ([99, 46, 110, 103, 108, 101, 46, 100], [.reg .fpu .frs, .sym ',', .reg .fpu .frt]),
  ([99, 46, 115, 101, 113, 46, 100], [.reg .fpu .frs, .sym ',', .reg .fpu .frt]),
  ([99, 46, 110, 103, 108, 46, 100], [.reg .fpu .frs, .sym ',', .reg .fpu .frt]),
  ([99, 46, 108, 116, 46, 100], [.reg .fpu .frs, .sym ',', .reg .fpu .frt]),
  ([99, 46, 110, 103, 101, 46, 100], [.reg .fpu .frs, .sym ',', .reg .fpu .frt]),
  ([99, 46, 108, 101, 46, 100], [.reg .fpu .frs, .sym ',', .reg .fpu .frt])]

/-- Names and syntax of the rows 400 to 499. -/
def rowTable4 : List (List Nat × List Elem) := [
  ([99, 46, 110, 103, 116, 46, 100], [.reg .fpu .frs, .sym ',', .reg .fpu .frt]),
  ([99, 118, 116, 46, 115, 46, 119], [.reg .fpu .frd, .sym ',', .reg .fpu .frs]),
  ([99, 118, 116, 46, 100, 46, 119], [.reg .fpu .frd, .sym ',', .reg .fpu .frs]),
  ([99, 118, 116, 46, 115, 46, 108], [.reg .fpu .frd, .sym ',', .reg .fpu .frs]),
  ([99, 118, 116, 46, 100, 46, 108], [.reg .fpu .frd, .sym ',', .reg .fpu .frs]),
  ([109, 102, 99, 50], [.reg .cpu .grt, .sym ',', .reg .gteData .grd]),
  ([109, 102, 99, 50], [.reg .cpu .grt, .sym ',', .reg .rspVector .rspvrs, .offset]),
  ([99, 102, 99, 50], [.reg .cpu .grt, .sym ',', .reg .gteControl .grd]),
  ([99, 102, 99, 50], [.reg .cpu .grt, .sym ',', .reg .rspControl .grd]),
  ([109, 116, 99, 50], [.reg .cpu .grt, .sym ',', .reg .gteData .grd]),
  ([109, 116, 99, 50], [.reg .cpu .grt, .sym ',', .reg .rspVector .rspvrs, .offset]),
  ([99, 116, 99, 50], [.reg .cpu .grt, .sym ',', .reg .gteControl .grd]),
  ([99, 116, 99, 50], [.reg .cpu .grt, .sym ',', .reg .rspControl .grd]),
  ([109, 102, 118], [.reg .cpu .grt, .sym ',', .vec .same .vrd]),
  ([109, 102, 118, 99], [.reg .cpu .grt, .sym ',', .vecControl]),
  ([109, 116, 118], [.reg .cpu .grt, .sym ',', .vec .same .vrd]),
  ([109, 116, 118, 99], [.reg .cpu .grt, .sym ',', .vecControl]),
  ([98, 118, 102], [.branch, .sym ',', .imm .i16]),
  ([98, 118, 102, 46, 66], [.imm .i16]),
  ([98, 118, 116], [.branch, .sym ',', .imm .i16]),
  ([98, 118, 116, 46, 66], [.imm .i16]),
  ([98, 118, 102, 108], [.branch, .sym ',', .imm .i16]),
  ([98, 118, 102, 108, 46, 66], [.imm .i16]),
  ([98, 118, 116, 108], [.branch, .sym ',', .imm .i16]),
  ([98, 118, 116, 108, 46, 66], [.imm .i16]),
  ([118, 97, 100, 100, 46, 83], [.vec .same .vrd, .sym ',', .vec .same .vrs, .sym ',', .vec .same .vrt]),
  ([118, 115, 117, 98, 46, 83], [.vec .same .vrd, .sym ',', .vec .same .vrs, .sym ',', .vec .same .vrt]),
  ([118, 115, 98, 110, 46, 115], [.vec .same .vrd, .sym ',', .vec .same .vrs, .sym ',', .vec .same .vrt]),
  ([118, 100, 105, 118, 46, 83], [.vec .same .vrd, .sym ',', .vec .same .vrs, .sym ',', .vec .same .vrt]),
  ([118, 109, 117, 108, 46, 83], [.vec .same .vrd, .sym ',', .vec .same .vrs, .sym ',', .vec .same .vrt]),
  ([118, 100, 111, 116, 46, 112], [.vec .single .vrd, .sym ',', .vec .same .vrs, .sym ',', .vec .same .vrt]),
  ([118, 100, 111, 116, 46, 116], [.vec .single .vrd, .sym ',', .vec .same .vrs, .sym ',', .vec .same .vrt]),
  ([118, 100, 111, 116, 46, 113], [.vec .single .vrd, .sym ',', .vec .same .vrs, .sym ',', .vec .same .vrt]),
  ([118, 115, 99, 108, 46, 112], [.vec .same .vrd, .sym ',', .vec .same .vrs, .sym ',', .vec .single .vrt]),
  ([118, 115, 99, 108, 46, 116], [.vec .same .vrd, .sym ',', .vec .same .vrs, .sym ',', .vec .single .vrt]),
  ([118, 115, 99, 108, 46, 113], [.vec .same .vrd, .sym ',', .vec .same .vrs, .sym ',', .vec .single .vrt]),
  ([118, 104, 100, 112, 46, 112], [.vec .single .vrd, .sym ',', .vec .same .vrs, .sym ',', .vec .same .vrt]),
  ([118, 104, 100, 112, 46, 116], [.vec .single .vrd, .sym ',', .vec .same .vrs, .sym ',', .vec .same .vrt]),
  ([118, 104, 100, 112, 46, 113], [.vec .single .vrd, .sym ',', .vec .same .vrs, .sym ',', .vec .same .vrt]),
  ([118, 99, 114, 115, 46, 116], [.vec .same .vrd, .sym ',', .vec .same .vrs, .sym ',', .vec .same .vrt]),
  ([118, 100, 101, 116, 46, 112], [.vec .single .vrd, .sym ',', .vec .same .vrs, .sym ',', .vec .same .vrt]),
  ([118, 99, 109, 112, 46, 83], [.cond, .sym ',', .vec .same .vrs, .sym ',', .vec .same .vrt]),
  ([118, 109, 105, 110, 46, 83], [.vec .same .vrd, .sym ',', .vec .same .vrs, .sym ',', .vec .same .vrt]),
  ([118, 109, 97, 120, 46, 83], [.vec .same .vrd, .sym ',', .vec .same .vrs, .sym ',', .vec .same .vrt]),
  ([118, 115, 99, 109, 112, 46, 83], [.vec .same .vrd, .sym ',', .vec .same .vrs, .sym ',', .vec .same .vrt]),
  ([118, 115, 103, 101, 46, 83], [.vec .same .vrd, .sym ',', .vec .same .vrs, .sym ',', .vec .same .vrt]),
  ([118, 115, 108, 116, 46, 83], [.vec .same .vrd, .sym ',', .vec .same .vrs, .sym ',', .vec .same .vrt]),
  ([101, 120, 116], [.reg .cpu .grt, .sym ',', .reg .cpu .grs, .sym ',', .imm .i5, .sym ',', .sec .ext]),
  ([105, 110, 115], [.reg .cpu .grt, .sym ',', .reg .cpu .grs, .sym ',', .imm .i5, .sym ',', .sec .ins]),
  ([119, 115, 98, 104], [.reg .cpu .grd, .sym ',', .reg .cpu .grt]),
  ([119, 115, 98, 104], [.reg .cpu .grd]),
  ([119, 115, 98, 119], [.reg .cpu .grd, .sym ',', .reg .cpu .grt]),
  ([119, 115, 98, 119], [.reg .cpu .grd]),
  ([115, 101, 98], [.reg .cpu .grd, .sym ',', .reg .cpu .grt]),
  ([115, 101, 98], [.reg .cpu .grd]),
  ([98, 105, 116, 114, 101, 118], [.reg .cpu .grd, .sym ',', .reg .cpu .grt]),
  ([98, 105, 116, 114, 101, 118], [.reg .cpu .grd]),
  ([115, 101, 104], [.reg .cpu .grd, .sym ',', .reg .cpu .grt]),
  ([115, 101, 104], [.reg .cpu .grd]),
  ([118, 99, 115, 116, 46, 83], [.vec .same .vrd, .sym ',', .arg .const]),
  ([118, 102, 50, 105, 110, 46, 83], [.vec .same .vrd, .sym ',', .vec .same .vrs, .sym ',', .imm .i5]),
  ([118, 102, 50, 105, 122, 46, 83], [.vec .same .vrd, .sym ',', .vec .same .vrs, .sym ',', .imm .i5]),
  ([118, 102, 50, 105, 117, 46, 83], [.vec .same .vrd, .sym ',', .vec .same .vrs, .sym ',', .imm .i5]),
  ([118, 102, 50, 105, 100, 46, 83], [.vec .same .vrd, .sym ',', .vec .same .vrs, .sym ',', .imm .i5]),
  ([118, 105, 50, 102, 46, 83], [.vec .same .vrd, .sym ',', .vec .same .vrs, .sym ',', .imm .i5]),
  ([118, 99, 109, 111, 118, 116, 46, 83], [.vec .same .vrd, .sym ',', .vec .same .vrs, .sym ',', .imm .i5]),
  ([118, 99, 109, 111, 118, 102, 46, 83], [.vec .same .vrd, .sym ',', .vec .same .vrs, .sym ',', .imm .i5]),
  ([118, 119, 98, 110, 46, 83], [.vec .same .vrd, .sym ',', .vec .same .vrs, .sym ',', .imm .i5]),
  ([118, 109, 111, 118, 46, 83], [.vec .same .vrd, .sym ',', .vec .same .vrs]),
  ([118, 97, 98, 115, 46, 83], [.vec .same .vrd, .sym ',', .vec .same .vrs]),
  ([118, 110, 101, 103, 46, 83], [.vec .same .vrd, .sym ',', .vec .same .vrs]),
  ([118, 105, 100, 116, 46, 83], [.vec .same .vrd]),
  ([118, 115, 97, 116, 48, 46, 83], [.vec .same .vrd, .sym ',', .vec .same .vrs]),
  ([118, 115, 97, 116, 49, 46, 83], [.vec .same .vrd, .sym ',', .vec .same .vrs]),
  ([118, 122, 101, 114, 111, 46, 83], [.vec .same .vrd]),
  ([118, 111, 110, 101, 46, 83], [.vec .same .vrd]),
  ([118, 114, 99, 112, 46, 83], [.vec .same .vrd, .sym ',', .vec .same .vrs]),
  ([118, 114, 115, 113, 46, 83], [.vec .same .vrd, .sym ',', .vec .same .vrs]),
  ([118, 115, 105, 110, 46, 83], [.vec .same .vrd, .sym ',', .vec .same .vrs]),
  ([118, 99, 111, 115, 46, 83], [.vec .same .vrd, .sym ',', .vec .same .vrs]),
  ([118, 101, 120, 112, 50, 46, 83], [.vec .same .vrd, .sym ',', .vec .same .vrs]),
  ([118, 108, 111, 103, 50, 46, 83], [.vec .same .vrd, .sym ',', .vec .same .vrs]),
  ([118, 115, 113, 114, 116, 46, 83], [.vec .same .vrd, .sym ',', .vec .same .vrs]),
  ([118, 97, 115, 105, 110, 46, 83], [.vec .same .vrd, .sym ',', .vec .same .vrs]),
  ([118, 110, 114, 99, 112, 46, 83], [.vec .same .vrd, .sym ',', .vec .same .vrs]),
  ([118, 110, 115, 105, 110, 46, 83], [.vec .same .vrd, .sym ',', .vec .same .vrs]),
  ([118, 114, 101, 120, 112, 50, 46, 83], [.vec .same .vrd, .sym ',', .vec .same .vrs]),
  ([118, 114, 110, 100, 115, 46, 83], [.vec .same .vrd]),
  ([118, 114, 110, 100, 105, 46, 83], [.vec .same .vrd]),
  ([118, 114, 110, 100, 102, 49, 46, 83], [.vec .same .vrd]),
  ([118, 114, 110, 100, 102, 50, 46, 83], [.vec .same .vrd]),
  ([118, 102, 50, 104, 46, 83], [.vec .half .vrd, .sym ',', .vec .same .vrs]),
  ([118, 104, 50, 102, 46, 83], [.vec .double .vrd, .sym ',', .vec .same .vrs]),
  ([118, 108, 103, 98, 46, 83], [.vec .same .vrd, .sym ',', .vec .same .vrs]),
  ([118, 117, 99, 50, 105, 102, 115, 46, 83], [.vec .quad .vrd, .sym ',', .vec .same .vrs]),
  ([118, 99, 50, 105, 46, 83], [.vec .quad .vrd, .sym ',', .vec .same .vrs]),
  ([118, 117, 115, 50, 105, 46, 83], [.vec .double .vrd, .sym ',', .vec .same .vrs]),
  ([118, 115, 50, 105, 46, 83], [.vec .double .vrd, .sym ',', .vec .same .vrs]),
  ([118, 105, 50, 117, 99, 46, 83], [.vec .fourth .vrd, .sym ',', .vec .same .vrs]),
  ([118, 105, 50, 99, 46, 83], [.vec .fourth .vrd, .sym ',', .vec .same .vrs])]

/-- Names and syntax of the rows 500 to 599. -/
def rowTable5 : List (List Nat × List Elem) := [
  ([118, 105, 50, 117, 115, 46, 83], [.vec .half .vrd, .sym ',', .vec .same .vrs]),
  ([118, 105, 50, 115, 46, 83], [.vec .half .vrd, .sym ',', .vec .same .vrs]),
  ([118, 115, 114, 116, 49, 46, 83], [.vec .same .vrd, .sym ',', .vec .same .vrs]),
  ([118, 115, 114, 116, 50, 46, 83], [.vec .same .vrd, .sym ',', .vec .same .vrs]),
  ([118, 98, 102, 121, 49, 46, 83], [.vec .same .vrd, .sym ',', .vec .same .vrs]),
  ([118, 98, 102, 121, 50, 46, 83], [.vec .same .vrd, .sym ',', .vec .same .vrs]),
  ([118, 111, 99, 112, 46, 83], [.vec .same .vrd, .sym ',', .vec .same .vrs]),
  ([118, 115, 111, 99, 112, 46, 83], [.vec .same .vrd, .sym ',', .vec .same .vrs]),
  ([118, 102, 97, 100, 46, 112], [.vec .single .vrd, .sym ',', .vec .same .vrs]),
  ([118, 102, 97, 100, 46, 116], [.vec .single .vrd, .sym ',', .vec .same .vrs]),
  ([118, 102, 97, 100, 46, 113], [.vec .single .vrd, .sym ',', .vec .same .vrs]),
  ([118, 97, 118, 103, 46, 112], [.vec .single .vrd, .sym ',', .vec .same .vrs]),
  ([118, 97, 118, 103, 46, 116], [.vec .single .vrd, .sym ',', .vec .same .vrs]),
  ([118, 97, 118, 103, 46, 113], [.vec .single .vrd, .sym ',', .vec .same .vrs]),
  ([118, 115, 114, 116, 51, 46, 83], [.vec .same .vrd, .sym ',', .vec .same .vrs]),
  ([118, 115, 114, 116, 52, 46, 83], [.vec .same .vrd, .sym ',', .vec .same .vrs]),
  ([118, 115, 103, 110, 46, 83], [.vec .same .vrd, .sym ',', .vec .same .vrs]),
  ([118, 109, 102, 118, 46, 83], [.vec .same .vrs, .sym ',', .imm .i7]),
  ([118, 109, 116, 118, 46, 83], [.vec .same .vrs, .sym ',', .imm .i7]),
  ([118, 109, 102, 118, 99, 46, 83], [.vec .same .vrs, .sym ',', .imm .i7]),
  ([118, 109, 116, 118, 99, 46, 83], [.vec .same .vrs, .sym ',', .imm .i7]),
  ([118, 116, 52, 52, 52, 52, 46, 83], [.vec .half .vrd, .sym ',', .vec .same .vrs]),
  ([118, 116, 53, 53, 53, 49, 46, 83], [.vec .half .vrd, .sym ',', .vec .same .vrs]),
  ([118, 116, 53, 54, 53, 48, 46, 83], [.vec .half .vrd, .sym ',', .vec .same .vrs]),
  ([118, 112, 102, 120, 115], [.arg .source]),
  ([118, 112, 102, 120, 116], [.arg .source]),
  ([118, 112, 102, 120, 100], [.arg .dest]),
  ([118, 105, 105, 109, 46, 115], [.vec .same .vrt, .sym ',', .imm .i16]),
  ([118, 102, 105, 109, 46, 115], [.vec .same .vrt, .sym ',', .imm .half]),
  ([118, 109, 109, 117, 108, 46, 83], [.matrix .vrd, .sym ',', .matrix .vrs, .sym ',', .matrix .vrt]),
  ([118, 116, 102, 109, 50, 46, 112], [.vec .same .vrd, .sym ',', .matrix .vrs, .sym ',', .vec .same .vrt]),
  ([118, 104, 116, 102, 109, 50, 46, 112], [.vec .same .vrd, .sym ',', .matrix .vrs, .sym ',', .vec .same .vrt]),
  ([118, 116, 102, 109, 51, 46, 116], [.vec .same .vrd, .sym ',', .matrix .vrs, .sym ',', .vec .same .vrt]),
  ([118, 104, 116, 102, 109, 51, 46, 116], [.vec .same .vrd, .sym ',', .matrix .vrs, .sym ',', .vec .same .vrt]),
  ([118, 116, 102, 109, 52, 46, 113], [.vec .same .vrd, .sym ',', .matrix .vrs, .sym ',', .vec .same .vrt]),
  ([118, 109, 115, 99, 108, 46, 83], [.matrix .vrd, .sym ',', .matrix .vrs, .sym ',', .vec .single .vrt]),
  ([118, 99, 114, 115, 112, 46, 116], [.vec .same .vrd, .sym ',', .vec .same .vrs, .sym ',', .vec .same .vrt]),
  ([118, 113, 109, 117, 108, 46, 113], [.vec .same .vrd, .sym ',', .vec .same .vrs, .sym ',', .vec .same .vrt]),
  ([118, 114, 111, 116, 46, 83], [.vec .same .vrd, .sym ',', .vec .single .vrs, .sym ',', .arg .rot]),
  ([118, 109, 109, 111, 118, 46, 83], [.matrix .vrd, .sym ',', .matrix .vrs]),
  ([118, 109, 105, 100, 116, 46, 83], [.matrix .vrd]),
  ([118, 109, 122, 101, 114, 111, 46, 83], [.matrix .vrd]),
  ([118, 109, 111, 110, 101, 46, 83], [.matrix .vrd]),
  ([118, 109, 117, 108, 102], [.reg .rspVector .rspvrd, .sym ',', .reg .rspVector .rspvrs, .sym ',', .reg .rspVector .rspvrt, .element]),
  ([118, 109, 117, 108, 102], [.reg .rspVector .rspvrs, .sym ',', .reg .rspVector .rspvrt, .element]),
  ([118, 109, 117, 108, 117], [.reg .rspVector .rspvrd, .sym ',', .reg .rspVector .rspvrs, .sym ',', .reg .rspVector .rspvrt, .element]),
  ([118, 109, 117, 108, 117], [.reg .rspVector .rspvrs, .sym ',', .reg .rspVector .rspvrt, .element]),
  ([118, 114, 110, 100, 112], [.reg .rspVector .rspvrd, .sym ',', .reg .rspVector .rspvrs, .sym ',', .reg .rspVector .rspvrt, .element]),
  ([118, 114, 110, 100, 112], [.reg .rspVector .rspvrs, .sym ',', .reg .rspVector .rspvrt, .element]),
  ([118, 109, 117, 108, 113], [.reg .rspVector .rspvrd, .sym ',', .reg .rspVector .rspvrs, .sym ',', .reg .rspVector .rspvrt, .element]),
  ([118, 109, 117, 108, 113], [.reg .rspVector .rspvrs, .sym ',', .reg .rspVector .rspvrt, .element]),
  ([118, 109, 117, 100, 108], [.reg .rspVector .rspvrd, .sym ',', .reg .rspVector .rspvrs, .sym ',', .reg .rspVector .rspvrt, .element]),
  ([118, 109, 117, 100, 108], [.reg .rspVector .rspvrs, .sym ',', .reg .rspVector .rspvrt, .element]),
  ([118, 109, 117, 100, 109], [.reg .rspVector .rspvrd, .sym ',', .reg .rspVector .rspvrs, .sym ',', .reg .rspVector .rspvrt, .element]),
  ([118, 109, 117, 100, 109], [.reg .rspVector .rspvrs, .sym ',', .reg .rspVector .rspvrt, .element]),
  ([118, 109, 117, 100, 110], [.reg .rspVector .rspvrd, .sym ',', .reg .rspVector .rspvrs, .sym ',', .reg .rspVector .rspvrt, .element]),
  ([118, 109, 117, 100, 110], [.reg .rspVector .rspvrs, .sym ',', .reg .rspVector .rspvrt, .element]),
  ([118, 109, 117, 100, 104], [.reg .rspVector .rspvrd, .sym ',', .reg .rspVector .rspvrs, .sym ',', .reg .rspVector .rspvrt, .element]),
  ([118, 109, 117, 100, 104], [.reg .rspVector .rspvrs, .sym ',', .reg .rspVector .rspvrt, .element]),
  ([118, 109, 97, 99, 102], [.reg .rspVector .rspvrd, .sym ',', .reg .rspVector .rspvrs, .sym ',', .reg .rspVector .rspvrt, .element]),
  ([118, 109, 97, 99, 102], [.reg .rspVector .rspvrs, .sym ',', .reg .rspVector .rspvrt, .element]),
  ([118, 109, 97, 99, 117], [.reg .rspVector .rspvrd, .sym ',', .reg .rspVector .rspvrs, .sym ',', .reg .rspVector .rspvrt, .element]),
  ([118, 109, 97, 99, 117], [.reg .rspVector .rspvrs, .sym ',', .reg .rspVector .rspvrt, .element]),
  ([118, 114, 110, 100, 110], [.reg .rspVector .rspvrd, .sym ',', .reg .rspVector .rspvrs, .sym ',', .reg .rspVector .rspvrt, .element]),
  ([118, 114, 110, 100, 110], [.reg .rspVector .rspvrs, .sym ',', .reg .rspVector .rspvrt, .element]),
  ([118, 109, 97, 99, 113], [.reg .rspVector .rspvrd, .sym ',', .reg .rspVector .rspvrs, .sym ',', .reg .rspVector .rspvrt, .element]),
  ([118, 109, 97, 99, 113], [.reg .rspVector .rspvrs, .sym ',', .reg .rspVector .rspvrt, .element]),
  ([118, 109, 97, 100, 108], [.reg .rspVector .rspvrd, .sym ',', .reg .rspVector .rspvrs, .sym ',', .reg .rspVector .rspvrt, .element]),
  ([118, 109, 97, 100, 108], [.reg .rspVector .rspvrs, .sym ',', .reg .rspVector .rspvrt, .element]),
  ([118, 109, 97, 100, 109], [.reg .rspVector .rspvrd, .sym ',', .reg .rspVector .rspvrs, .sym ',', .reg .rspVector .rspvrt, .element]),
  ([118, 109, 97, 100, 109], [.reg .rspVector .rspvrs, .sym ',', .reg .rspVector .rspvrt, .element]),
  ([118, 109, 97, 100, 110], [.reg .rspVector .rspvrd, .sym ',', .reg .rspVector .rspvrs, .sym ',', .reg .rspVector .rspvrt, .element]),
  ([118, 109, 97, 100, 110], [.reg .rspVector .rspvrs, .sym ',', .reg .rspVector .rspvrt, .element]),
  ([118, 109, 97, 100, 104], [.reg .rspVector .rspvrd, .sym ',', .reg .rspVector .rspvrs, .sym ',', .reg .rspVector .rspvrt, .element]),
  ([118, 109, 97, 100, 104], [.reg .rspVector .rspvrs, .sym ',', .reg .rspVector .rspvrt, .element]),
  ([118, 97, 100, 100], [.reg .rspVector .rspvrd, .sym ',', .reg .rspVector .rspvrs, .sym ',', .reg .rspVector .rspvrt, .element]),
  ([118, 97, 100, 100], [.reg .rspVector .rspvrs, .sym ',', .reg .rspVector .rspvrt, .element]),
  ([118, 115, 117, 98], [.reg .rspVector .rspvrd, .sym ',', .reg .rspVector .rspvrs, .sym ',', .reg .rspVector .rspvrt, .element]),
  ([118, 115, 117, 98], [.reg .rspVector .rspvrs, .sym ',', .reg .rspVector .rspvrt, .element]),
  ([118, 115, 117, 116], [.reg .rspVector .rspvrd, .sym ',', .reg .rspVector .rspvrs, .sym ',', .reg .rspVector .rspvrt, .element]),
  ([118, 115, 117, 116], [.reg .rspVector .rspvrs, .sym ',', .reg .rspVector .rspvrt, .element]),
  ([118, 97, 98, 115], [.reg .rspVector .rspvrd, .sym ',', .reg .rspVector .rspvrs, .sym ',', .reg .rspVector .rspvrt, .element]),
  ([118, 97, 98, 115], [.reg .rspVector .rspvrs, .sym ',', .reg .rspVector .rspvrt, .element]),
  ([118, 97, 100, 100, 99], [.reg .rspVector .rspvrd, .sym ',', .reg .rspVector .rspvrs, .sym ',', .reg .rspVector .rspvrt, .element]),
  ([118, 97, 100, 100, 99], [.reg .rspVector .rspvrs, .sym ',', .reg .rspVector .rspvrt, .element]),
  ([118, 115, 117, 98, 99], [.reg .rspVector .rspvrd, .sym ',', .reg .rspVector .rspvrs, .sym ',', .reg .rspVector .rspvrt, .element]),
  ([118, 115, 117, 98, 99], [.reg .rspVector .rspvrs, .sym ',', .reg .rspVector .rspvrt, .element]),
  ([118, 97, 100, 100, 98], [.reg .rspVector .rspvrd, .sym ',', .reg .rspVector .rspvrs, .sym ',', .reg .rspVector .rspvrt, .element]),
  ([118, 97, 100, 100, 98], [.reg .rspVector .rspvrs, .sym ',', .reg .rspVector .rspvrt, .element]),
  ([118, 115, 117, 98, 98], [.reg .rspVector .rspvrd, .sym ',', .reg .rspVector .rspvrs, .sym ',', .reg .rspVector .rspvrt, .element]),
  ([118, 115, 117, 98, 98], [.reg .rspVector .rspvrs, .sym ',', .reg .rspVector .rspvrt, .element]),
  ([118, 97, 99, 99, 98], [.reg .rspVector .rspvrd, .sym ',', .reg .rspVector .rspvrs, .sym ',', .reg .rspVector .rspvrt, .element]),
  ([118, 97, 99, 99, 98], [.reg .rspVector .rspvrs, .sym ',', .reg .rspVector .rspvrt, .element]),
  ([118, 115, 117, 99, 98], [.reg .rspVector .rspvrd, .sym ',', .reg .rspVector .rspvrs, .sym ',', .reg .rspVector .rspvrt, .element]),
  ([118, 115, 117, 99, 98], [.reg .rspVector .rspvrs, .sym ',', .reg .rspVector .rspvrt, .element]),
  ([118, 115, 97, 100], [.reg .rspVector .rspvrd, .sym ',', .reg .rspVector .rspvrs, .sym ',', .reg .rspVector .rspvrt, .element]),
  ([118, 115, 97, 100], [.reg .rspVector .rspvrs, .sym ',', .reg .rspVector .rspvrt, .element]),
  ([118, 115, 97, 99], [.reg .rspVector .rspvrd, .sym ',', .reg .rspVector .rspvrs, .sym ',', .reg .rspVector .rspvrt, .element]),
  ([118, 115, 97, 99], [.reg .rspVector .rspvrs, .sym ',', .reg .rspVector .rspvrt, .element]),
  ([118, 115, 117, 109], [.reg .rspVector .rspvrd, .sym ',', .reg .rspVector .rspvrs, .sym ',', .reg .rspVector .rspvrt, .element])]

/-- Names and syntax of the rows 600 to 699. -/
def rowTable6 : List (List Nat × List Elem) := [
  ([118, 115, 117, 109], [.reg .rspVector .rspvrs, .sym ',', .reg .rspVector .rspvrt, .element]),
  ([118, 115, 97, 114], [.reg .rspVector .rspvrd, .sym ',', .reg .rspVector .rspvrs, .sym ',', .reg .rspVector .rspvrt, .element]),
  ([118, 115, 97, 114], [.reg .rspVector .rspvrs, .sym ',', .reg .rspVector .rspvrt, .element]),
  ([118, 97, 99, 99], [.reg .rspVector .rspvrd, .sym ',', .reg .rspVector .rspvrs, .sym ',', .reg .rspVector .rspvrt, .element]),
  ([118, 97, 99, 99], [.reg .rspVector .rspvrs, .sym ',', .reg .rspVector .rspvrt, .element]),
  ([118, 115, 117, 99], [.reg .rspVector .rspvrd, .sym ',', .reg .rspVector .rspvrs, .sym ',', .reg .rspVector .rspvrt, .element]),
  ([118, 115, 117, 99], [.reg .rspVector .rspvrs, .sym ',', .reg .rspVector .rspvrt, .element]),
  ([118, 108, 116], [.reg .rspVector .rspvrd, .sym ',', .reg .rspVector .rspvrs, .sym ',', .reg .rspVector .rspvrt, .element]),
  ([118, 108, 116], [.reg .rspVector .rspvrs, .sym ',', .reg .rspVector .rspvrt, .element]),
  ([118, 101, 113], [.reg .rspVector .rspvrd, .sym ',', .reg .rspVector .rspvrs, .sym ',', .reg .rspVector .rspvrt, .element]),
  ([118, 101, 113], [.reg .rspVector .rspvrs, .sym ',', .reg .rspVector .rspvrt, .element]),
  ([118, 110, 101], [.reg .rspVector .rspvrd, .sym ',', .reg .rspVector .rspvrs, .sym ',', .reg .rspVector .rspvrt, .element]),
  ([118, 110, 101], [.reg .rspVector .rspvrs, .sym ',', .reg .rspVector .rspvrt, .element]),
  ([118, 103, 101], [.reg .rspVector .rspvrd, .sym ',', .reg .rspVector .rspvrs, .sym ',', .reg .rspVector .rspvrt, .element]),
  ([118, 103, 101], [.reg .rspVector .rspvrs, .sym ',', .reg .rspVector .rspvrt, .element]),
  ([118, 99, 108], [.reg .rspVector .rspvrd, .sym ',', .reg .rspVector .rspvrs, .sym ',', .reg .rspVector .rspvrt, .element]),
  ([118, 99, 108], [.reg .rspVector .rspvrs, .sym ',', .reg .rspVector .rspvrt, .element]),
  ([118, 99, 104], [.reg .rspVector .rspvrd, .sym ',', .reg .rspVector .rspvrs, .sym ',', .reg .rspVector .rspvrt, .element]),
  ([118, 99, 104], [.reg .rspVector .rspvrs, .sym ',', .reg .rspVector .rspvrt, .element]),
  ([118, 99, 114], [.reg .rspVector .rspvrd, .sym ',', .reg .rspVector .rspvrs, .sym ',', .reg .rspVector .rspvrt, .element]),
  ([118, 99, 114], [.reg .rspVector .rspvrs, .sym ',', .reg .rspVector .rspvrt, .element]),
  ([118, 109, 114, 103], [.reg .rspVector .rspvrd, .sym ',', .reg .rspVector .rspvrs, .sym ',', .reg .rspVector .rspvrt, .element]),
  ([118, 109, 114, 103], [.reg .rspVector .rspvrs, .sym ',', .reg .rspVector .rspvrt, .element]),
  ([118, 97, 110, 100], [.reg .rspVector .rspvrd, .sym ',', .reg .rspVector .rspvrs, .sym ',', .reg .rspVector .rspvrt, .element]),
  ([118, 97, 110, 100], [.reg .rspVector .rspvrs, .sym ',', .reg .rspVector .rspvrt, .element]),
  ([118, 110, 97, 110, 100], [.reg .rspVector .rspvrd, .sym ',', .reg .rspVector .rspvrs, .sym ',', .reg .rspVector .rspvrt, .element]),
  ([118, 110, 97, 110, 100], [.reg .rspVector .rspvrs, .sym ',', .reg .rspVector .rspvrt, .element]),
  ([118, 111, 114], [.reg .rspVector .rspvrd, .sym ',', .reg .rspVector .rspvrs, .sym ',', .reg .rspVector .rspvrt, .element]),
  ([118, 111, 114], [.reg .rspVector .rspvrs, .sym ',', .reg .rspVector .rspvrt, .element]),
  ([118, 110, 111, 114], [.reg .rspVector .rspvrd, .sym ',', .reg .rspVector .rspvrs, .sym ',', .reg .rspVector .rspvrt, .element]),
  ([118, 110, 111, 114], [.reg .rspVector .rspvrs, .sym ',', .reg .rspVector .rspvrt, .element]),
  ([118, 120, 111, 114], [.reg .rspVector .rspvrd, .sym ',', .reg .rspVector .rspvrs, .sym ',', .reg .rspVector .rspvrt, .element]),
  ([118, 120, 111, 114], [.reg .rspVector .rspvrs, .sym ',', .reg .rspVector .rspvrt, .element]),
  ([118, 110, 120, 111, 114], [.reg .rspVector .rspvrd, .sym ',', .reg .rspVector .rspvrs, .sym ',', .reg .rspVector .rspvrt, .element]),
  ([118, 110, 120, 111, 114], [.reg .rspVector .rspvrs, .sym ',', .reg .rspVector .rspvrt, .element]),
  ([118, 114, 99, 112], [.reg .rspVector .rspvrd, .scalar .rspvde, .sym ',', .reg .rspVector .rspvrt, .scalar .rspve]),
  ([118, 114, 99, 112, 108], [.reg .rspVector .rspvrd, .scalar .rspvde, .sym ',', .reg .rspVector .rspvrt, .scalar .rspve]),
  ([118, 114, 99, 112, 104], [.reg .rspVector .rspvrd, .scalar .rspvde, .sym ',', .reg .rspVector .rspvrt, .scalar .rspve]),
  ([118, 109, 111, 118], [.reg .rspVector .rspvrd, .scalar .rspvde, .sym ',', .reg .rspVector .rspvrt, .scalar .rspve]),
  ([118, 114, 115, 113], [.reg .rspVector .rspvrd, .scalar .rspvde, .sym ',', .reg .rspVector .rspvrt, .scalar .rspve]),
  ([118, 114, 115, 113, 108], [.reg .rspVector .rspvrd, .scalar .rspvde, .sym ',', .reg .rspVector .rspvrt, .scalar .rspve]),
  ([118, 114, 115, 113, 104], [.reg .rspVector .rspvrd, .scalar .rspvde, .sym ',', .reg .rspVector .rspvrt, .scalar .rspve]),
  ([118, 110, 111, 112], []),
  ([118, 101, 120, 116, 116], [.reg .rspVector .rspvrd, .sym ',', .reg .rspVector .rspvrs, .sym ',', .reg .rspVector .rspvrt, .element]),
  ([118, 101, 120, 116, 116], [.reg .rspVector .rspvrs, .sym ',', .reg .rspVector .rspvrt, .element]),
  ([118, 101, 120, 116, 113], [.reg .rspVector .rspvrd, .sym ',', .reg .rspVector .rspvrs, .sym ',', .reg .rspVector .rspvrt, .element]),
  ([118, 101, 120, 116, 113], [.reg .rspVector .rspvrs, .sym ',', .reg .rspVector .rspvrt, .element]),
  ([118, 101, 120, 116, 110], [.reg .rspVector .rspvrd, .sym ',', .reg .rspVector .rspvrs, .sym ',', .reg .rspVector .rspvrt, .element]),
  ([118, 101, 120, 116, 110], [.reg .rspVector .rspvrs, .sym ',', .reg .rspVector .rspvrt, .element]),
  ([118, 105, 110, 115, 116], [.reg .rspVector .rspvrd, .sym ',', .reg .rspVector .rspvrs, .sym ',', .reg .rspVector .rspvrt, .element]),
  ([118, 105, 110, 115, 116], [.reg .rspVector .rspvrs, .sym ',', .reg .rspVector .rspvrt, .element]),
  ([118, 105, 110, 115, 113], [.reg .rspVector .rspvrd, .sym ',', .reg .rspVector .rspvrs, .sym ',', .reg .rspVector .rspvrt, .element]),
  ([118, 105, 110, 115, 113], [.reg .rspVector .rspvrs, .sym ',', .reg .rspVector .rspvrt, .element]),
  ([118, 105, 110, 115, 110], [.reg .rspVector .rspvrd, .sym ',', .reg .rspVector .rspvrs, .sym ',', .reg .rspVector .rspvrt, .element]),
  ([118, 105, 110, 115, 110], [.reg .rspVector .rspvrs, .sym ',', .reg .rspVector .rspvrt, .element]),
  ([118, 110, 117, 108, 108], []),
  ([108, 98, 118], [.reg .rspVector .rspvrt, .offset, .sym ',', .imm .i7, .sym '(', .reg .cpu .grs, .sym ')']),
  ([108, 98, 118], [.reg .rspVector .rspvrt, .offset, .sym ',', .sym '(', .reg .cpu .grs, .sym ')']),
  ([108, 115, 118], [.reg .rspVector .rspvrt, .offset, .sym ',', .imm .i7, .sym '(', .reg .cpu .grs, .sym ')']),
  ([108, 115, 118], [.reg .rspVector .rspvrt, .offset, .sym ',', .sym '(', .reg .cpu .grs, .sym ')']),
  ([108, 108, 118], [.reg .rspVector .rspvrt, .offset, .sym ',', .imm .i7, .sym '(', .reg .cpu .grs, .sym ')']),
  ([108, 108, 118], [.reg .rspVector .rspvrt, .offset, .sym ',', .sym '(', .reg .cpu .grs, .sym ')']),
  ([108, 100, 118], [.reg .rspVector .rspvrt, .offset, .sym ',', .imm .i7, .sym '(', .reg .cpu .grs, .sym ')']),
  ([108, 100, 118], [.reg .rspVector .rspvrt, .offset, .sym ',', .sym '(', .reg .cpu .grs, .sym ')']),
  ([108, 113, 118], [.reg .rspVector .rspvrt, .offset, .sym ',', .imm .i7, .sym '(', .reg .cpu .grs, .sym ')']),
  ([108, 113, 118], [.reg .rspVector .rspvrt, .offset, .sym ',', .sym '(', .reg .cpu .grs, .sym ')']),
  ([108, 114, 118], [.reg .rspVector .rspvrt, .offset, .sym ',', .imm .i7, .sym '(', .reg .cpu .grs, .sym ')']),
  ([108, 114, 118], [.reg .rspVector .rspvrt, .offset, .sym ',', .sym '(', .reg .cpu .grs, .sym ')']),
  ([108, 112, 118], [.reg .rspVector .rspvrt, .offset, .sym ',', .imm .i7, .sym '(', .reg .cpu .grs, .sym ')']),
  ([108, 112, 118], [.reg .rspVector .rspvrt, .offset, .sym ',', .sym '(', .reg .cpu .grs, .sym ')']),
  ([108, 117, 118], [.reg .rspVector .rspvrt, .offset, .sym ',', .imm .i7, .sym '(', .reg .cpu .grs, .sym ')']),
  ([108, 117, 118], [.reg .rspVector .rspvrt, .offset, .sym ',', .sym '(', .reg .cpu .grs, .sym ')']),
  ([108, 104, 118], [.reg .rspVector .rspvrt, .offset, .sym ',', .imm .i7, .sym '(', .reg .cpu .grs, .sym ')']),
  ([108, 104, 118], [.reg .rspVector .rspvrt, .offset, .sym ',', .sym '(', .reg .cpu .grs, .sym ')']),
  ([108, 102, 118], [.reg .rspVector .rspvrt, .offset, .sym ',', .imm .i7, .sym '(', .reg .cpu .grs, .sym ')']),
  ([108, 102, 118], [.reg .rspVector .rspvrt, .offset, .sym ',', .sym '(', .reg .cpu .grs, .sym ')']),
  ([108, 116, 118], [.reg .rspVector .rspvrt, .offset, .sym ',', .imm .i7, .sym '(', .reg .cpu .grs, .sym ')']),
  ([108, 116, 118], [.reg .rspVector .rspvrt, .offset, .sym ',', .sym '(', .reg .cpu .grs, .sym ')']),
  ([115, 98, 118], [.reg .rspVector .rspvrt, .offset, .sym ',', .imm .i7, .sym '(', .reg .cpu .grs, .sym ')']),
  ([115, 98, 118], [.reg .rspVector .rspvrt, .offset, .sym ',', .sym '(', .reg .cpu .grs, .sym ')']),
  ([115, 115, 118], [.reg .rspVector .rspvrt, .offset, .sym ',', .imm .i7, .sym '(', .reg .cpu .grs, .sym ')']),
  ([115, 115, 118], [.reg .rspVector .rspvrt, .offset, .sym ',', .sym '(', .reg .cpu .grs, .sym ')']),
  ([115, 108, 118], [.reg .rspVector .rspvrt, .offset, .sym ',', .imm .i7, .sym '(', .reg .cpu .grs, .sym ')']),
  ([115, 108, 118], [.reg .rspVector .rspvrt, .offset, .sym ',', .sym '(', .reg .cpu .grs, .sym ')']),
  ([115, 100, 118], [.reg .rspVector .rspvrt, .offset, .sym ',', .imm .i7, .sym '(', .reg .cpu .grs, .sym ')']),
  ([115, 100, 118], [.reg .rspVector .rspvrt, .offset, .sym ',', .sym '(', .reg .cpu .grs, .sym ')']),
  ([115, 113, 118], [.reg .rspVector .rspvrt, .offset, .sym ',', .imm .i7, .sym '(', .reg .cpu .grs, .sym ')']),
  ([115, 113, 118], [.reg .rspVector .rspvrt, .offset, .sym ',', .sym '(', .reg .cpu .grs, .sym ')']),
  ([115, 114, 118], [.reg .rspVector .rspvrt, .offset, .sym ',', .imm .i7, .sym '(', .reg .cpu .grs, .sym ')']),
  ([115, 114, 118], [.reg .rspVector .rspvrt, .offset, .sym ',', .sym '(', .reg .cpu .grs, .sym ')']),
  ([115, 112, 118], [.reg .rspVector .rspvrt, .offset, .sym ',', .imm .i7, .sym '(', .reg .cpu .grs, .sym ')']),
  ([115, 112, 118], [.reg .rspVector .rspvrt, .offset, .sym ',', .sym '(', .reg .cpu .grs, .sym ')']),
  ([115, 117, 118], [.reg .rspVector .rspvrt, .offset, .sym ',', .imm .i7, .sym '(', .reg .cpu .grs, .sym ')']),
  ([115, 117, 118], [.reg .rspVector .rspvrt, .offset, .sym ',', .sym '(', .reg .cpu .grs, .sym ')']),
  ([115, 104, 118], [.reg .rspVector .rspvrt, .offset, .sym ',', .imm .i7, .sym '(', .reg .cpu .grs, .sym ')']),
  ([115, 104, 118], [.reg .rspVector .rspvrt, .offset, .sym ',', .sym '(', .reg .cpu .grs, .sym ')']),
  ([115, 102, 118], [.reg .rspVector .rspvrt, .offset, .sym ',', .imm .i7, .sym '(', .reg .cpu .grs, .sym ')']),
  ([115, 102, 118], [.reg .rspVector .rspvrt, .offset, .sym ',', .sym '(', .reg .cpu .grs, .sym ')']),
  ([115, 119, 118], [.reg .rspVector .rspvrt, .offset, .sym ',', .imm .i7, .sym '(', .reg .cpu .grs, .sym ')']),
  ([115, 119, 118], [.reg .rspVector .rspvrt, .offset, .sym ',', .sym '(', .reg .cpu .grs, .sym ')'])]

/-- Names and syntax of the rows 700 to 701. -/
def rowTable7 : List (List Nat × List Elem) := [
  ([115, 116, 118], [.reg .rspVector .rspvrt, .offset, .sym ',', .imm .i7, .sym '(', .reg .cpu .grs, .sym ')']),
  ([115, 116, 118], [.reg .rspVector .rspvrt, .offset, .sym ',', .sym '(', .reg .cpu .grs, .sym ')'])]

/-- Names and syntax of all rows. -/
def rowTable : List (List Nat × List Elem) := rowTable0 ++ rowTable1 ++ rowTable2 ++ rowTable3 ++ rowTable4 ++ rowTable5 ++ rowTable6 ++ rowTable7

/-- The first three letters of the names as numbers. -/
def rowKeys : List Nat := [
  106, 6971756, 6448497, 6448497, 98, 6450789, 6450789, 6450277, 6449012, 6382692, 6382692, 7566690, 7566690, 6382692,
  6382692, 7566690, 7566690, 7564404, 7564404, 7564404, 7564404, 6385252, 6385252, 7303785, 7303785, 7892850, 7892850, 7107945,
  6516592, 6448497, 6448497, 6450789, 6450789, 6450277, 6449012, 6578532, 6578532, 6583157, 6583157, 6578532, 6578532, 6583157,
  6583157, 7103596, 7103596, 7103602, 7103602, 27761, 27761, 29553, 29553, 27746, 27746, 27752, 27752, 7108460,
  7108460, 27767, 27767, 7103093, 7103093, 7104629, 7104629, 7108466, 7108466, 7108469, 7108469, 29538, 29538, 29544,
  29544, 7567212, 7567212, 29559, 29559, 7562348, 7562348, 7562354, 7562354, 7567218, 7567218, 6512995, 6512995, 27756,
  27756, 7108451, 7108451, 7089779, 7089779, 7108451, 7108451, 7108142, 7108142, 7105636, 7105636, 7103587, 7103587, 7089764,
  7089764, 7695478, 7695478, 7108204, 7108204, 7108210, 7108210, 7108142, 7108142, 7106915, 27748, 27748, 29539, 29539,
  7567203, 7567203, 7548531, 7548531, 7567203, 7567203, 7566894, 7566894, 7562084, 7562084, 7562339, 7562339, 7548516, 7548516,
  7697270, 7697270, 7566956, 7566956, 7566962, 7566962, 7566894, 7566894, 7566894, 7566894, 7565667, 29540, 29540, 7564396,
  7564396, 7237488, 7565932, 7565932, 7499636, 7499636, 7565921, 7565921, 7564396, 7564396, 7565932, 7565932, 7499636, 7499636,
  7565921, 7565921, 27250, 6971756, 6971756, 7171958, 7171958, 7567731, 7567731, 6451813, 6451813, 7567726, 7169640, 7173224,
  7169644, 7173228, 6583148, 6583148, 6583154, 6583154, 6515834, 6583154, 6583154, 6515823, 7173484, 7173484, 7173484, 7173484,
  7173484, 7173484, 6580598, 6580598, 6580598, 6580598, 6581621, 6581621, 7168356, 6581621, 6581621, 7168356, 6579305, 6579305,
  6579305, 6579305, 6382692, 6382692, 6382692, 6382692, 7171958, 6515813, 7566690, 7566690, 7234919, 7566690, 7566690, 7234919,
  6385252, 6385252, 28530, 28530, 7892850, 6647666, 7892850, 6647666, 7237490, 7237490, 7237492, 7169651, 7173235, 7564404,
  7564404, 7563124, 7563124, 7564404, 7564404, 7563124, 7563124, 6578532, 6578532, 7168376, 6578532, 6578532, 6581615, 7170414,
  6583157, 6583157, 6581861, 7172981, 6583157, 6583157, 6581861, 7172981, 7628645, 7628645, 7628645, 7628645, 7629940, 7629940,
  7629940, 7629940, 7628145, 7628145, 7630437, 7630437, 6583148, 6583148, 6583154, 6583154, 6583154, 6583154, 6583148, 6583148,
  6583154, 6583154, 6583154, 6583154, 6450292, 6448997, 6450292, 6448997, 7628645, 7628645, 7629940, 7629940, 7628145, 7630437,
  6450292, 6448997, 6447468, 6450292, 6448997, 7173235, 7173235, 7169635, 7169635, 6581606, 7173219, 7173219, 6581620, 7629922,
  7629922, 7629922, 7629922, 7497317, 6648421, 7169635, 6581606, 6514275, 7173219, 6581620, 6517859, 6447921, 6447921, 6447921,
  6447921, 6382692, 6382692, 7566690, 7566690, 7173484, 7173484, 6580598, 6580598, 7565682, 6382195, 7171958, 7234919, 7499637,
  7631477, 6514025, 6712431, 7499637, 7631477, 6514025, 6712431, 7500657, 6382692, 7566690, 7173484, 7168356, 7168356, 7172981,
  7172981, 7168356, 7172981, 6518388, 6518388, 6518388, 7168376, 7170414, 6499942, 6499957, 6499941, 6499957, 6499951, 6499948,
  6499957, 6499951, 6499948, 6499957, 6499955, 6499950, 6499955, 6499950, 6499948, 6499950, 6499948, 6499950, 6382692, 6382692,
  7566690, 7566690, 7173484, 7173484, 6580598, 6580598, 7565682, 6382195, 7171958, 7234919, 7499637, 7631477, 6514025, 6712431,
  7499637, 7631477, 6514025, 6712431, 6518388, 6518388, 6518388, 6499942, 6499957, 6499941, 6499957, 6499951, 6499957, 6499951,
  6499957, 6499955, 6499950, 6499955, 6499950, 6499948, 6499950, 6499948, 6499950, 6518388, 6518388, 6518388, 6518388, 7169635,
  7169635, 6514275, 6514275, 7173219, 7173219, 6517859, 6517859, 7169654, 7169654, 7173238, 7173238, 6452838, 6452838, 6452852,
  6452852, 6452838, 6452838, 6452852, 6452852, 7758180, 7762805, 7762786, 7758953, 7761269, 7758959, 7758959, 7758959, 7762787,
  7762787, 7762787, 7759972, 7759972, 7759972, 7758706, 7758949, 7758701, 7761257, 7761249, 7762787, 7762791, 7762796, 6649972,
  6909555, 7828322, 7828322, 7828322, 7828322, 7562594, 7562594, 6449524, 6449524, 7562600, 7562600, 7758707, 7759410, 7759410,
  7759410, 7759410, 7760178, 7758701, 7758701, 7763810, 7761263, 7758178, 7761509, 7760228, 7762785, 7762785, 7764581, 7761774,
  7762531, 7762547, 7762793, 7758703, 7759224, 7761007, 7762801, 7758195, 7761522, 7761523, 7762533, 7762542, 7762542, 7762542,
  7762542, 7759410, 7759922, 7760999, 7763299, 7758642, 7763315, 7762738, 7760178, 7760178, 7760178, 7760178, 7762802, 7762802,
  7758438, 7758438, 7761763, 7762799, 7759457, 7759457, 7759457, 7758198, 7758198, 7758198, 7762802, 7762802, 7762791, 7761254,
  7761268, 7761254, 7761268, 7762996, 7762997, 7762997, 7762022, 7762022, 7762022, 7760233, 7759465, 7761261, 7763046, 7759988,
  7763046, 7759988, 7763046, 7761267, 7758706, 7762285, 7762543, 7761261, 7761257, 7761274, 7761263, 7761269, 7761269, 7761269,
  7761269, 7762542, 7762542, 7761269, 7761269, 7761269, 7761269, 7761269, 7761269, 7761269, 7761269, 7761269, 7761269, 7761249,
  7761249, 7761249, 7761249, 7762542, 7762542, 7761249, 7761249, 7761249, 7761249, 7761249, 7761249, 7761249, 7761249, 7761249,
  7761249, 7758180, 7758180, 7762805, 7762805, 7762805, 7762805, 7758178, 7758178, 7758180, 7758180, 7762805, 7762805, 7758180,
  7758180, 7762805, 7762805, 7758179, 7758179, 7762805, 7762805, 7762785, 7762785, 7762785, 7762785, 7762805, 7762805, 7762785,
  7762785, 7758179, 7758179, 7762805, 7762805, 7761012, 7761012, 7759217, 7759217, 7761509, 7761509, 7759717, 7759717, 7758700,
  7758700, 7758696, 7758696, 7758706, 7758706, 7761266, 7761266, 7758190, 7758190, 7761505, 7761505, 7761778, 7761778, 7761519,
  7761519, 7764079, 7764079, 7761528, 7761528, 7762531, 7762531, 7762531, 7761263, 7762547, 7762547, 7762547, 7761519, 7759224,
  7759224, 7759224, 7759224, 7759224, 7759224, 7760238, 7760238, 7760238, 7760238, 7760238, 7760238, 7761525, 7103094, 7103094,
  7107446, 7107446, 7105654, 7105654, 7103606, 7103606, 7106934, 7106934, 7107190, 7107190, 7106678, 7106678, 7107958, 7107958,
  7104630, 7104630, 7104118, 7104118, 7107702, 7107702, 7561846, 7561846, 7566198, 7566198, 7564406, 7564406, 7562358, 7562358,
  7565686, 7565686, 7565942, 7565942, 7565430, 7565430, 7566710, 7566710, 7563382, 7563382, 7562870, 7562870, 7567222, 7567222,
  7566454, 7566454]

/-- The name of a row as numbers. -/
def nameOf (op : Op) : List Nat := op.name.toList.map Char.toNat

theorem rowTable_eq : (Mips.opcodes.map fun op => (nameOf op, elements op.mask.toList, op.mask.toList.contains '?')) = rowTable.map fun r => (r.1, some r.2, false) := by
  decide +kernel

/-- Two names of rows can stand for the same name. -/
def overlap : List Nat → List Nat → Bool
  | [], [] => true
  | c :: p, d :: q =>
    (c.beq d || c.beq 66 || d.beq 66 || (c.beq 83 && [115, 112, 116, 113].contains d) || (d.beq 83 && [115, 112, 116, 113].contains c)) &&
      (c.beq 66 || d.beq 66 || overlap p q)
  | _, _ => false

/-- All versions. -/
def versions : List Version := [.psx, .n64, .ps2, .psp, .rsp, .invalid]

theorem mem_versions (v : Version) : v ∈ versions := by cases v <;> decide

/-- The rows that another row hides: of `mult` and `multu` with three operands the PS2 takes the one with `d`. -/
def shadowed (v : Version) (n : List Nat) (es : List Elem) : Bool :=
  v == .ps2 && (n == [109, 117, 108, 116] || n == [109, 117, 108, 116, 117]) && es.head? == some (.forced 0)

/-- A row before another one does not take its texts. -/
def apart (a b : Op × List Nat × List Elem) : Bool :=
  !overlap a.2.1 b.2.1 || versions.all fun v => !(a.1.available v && b.1.available v) || clash a.2.2 b.2.2 || shadowed v b.2.1 b.2.2

/-- All pairs. -/
def allPairs {α : Type} (r : α → α → Bool) : List α → Bool
  | [] => true
  | a :: l => l.all (r a) && allPairs r l

/-- The first three letters of a name as a number. -/
def key (n : List Nat) : Nat := (n.take 3).foldl (fun a c => a * 256 + c) 0

theorem rowKeys_eq : rowTable.map (fun r => key r.1) = rowKeys := by decide +kernel

/-- The first three letters are no patterns. -/
def plainKey (n : List Nat) : Bool := (n.take 3).all fun c => c != 66 && c != 83

set_option maxRecDepth 100000 in
theorem rows_apart : allPairs (fun a b => !a.1.beq b.1 || apart a.2 b.2) (rowKeys.zip (Mips.opcodes.zip rowTable)) = true := by decide +kernel

theorem rows_ok : (rowTable.all fun r => ok r.2 && plainKey r.1 && r.1.all fun c => c < 128) = true := by decide +kernel

/-- The role that an operand fills. -/
def slotOf : Elem → Option Slot
  | .reg _ s | .vec _ s | .matrix s | .scalar s => some s
  | .vecControl => some .vrd
  | .element => some .rspve
  | .offset => some .rspvealt
  | _ => none

/-- The numbers of an operand fit into its role. -/
def fits (six : Bool) : Elem → Bool
  | .reg _ s => 5 ≤ Spec.Mips.regBits six s
  | .vec _ s => s == .vrs || s == .vrt || s == .vrd
  | .matrix s => !six && (s == .vrs || s == .vrt || s == .vrd)
  | .scalar s => 4 ≤ Spec.Mips.regBits six s
  | _ => true

/-- An expression that is the second immediate. -/
def isSec : Elem → Bool
  | .sec _ => true
  | _ => false

/-- All roles. -/
def slots : List Slot := [.grs, .grt, .grd, .frs, .frt, .frd, .vrs, .vrt, .vrd, .ps2vrs, .ps2vrt, .ps2vrd, .rspvrs, .rspvrt, .rspvrd, .rspve, .rspvde, .rspvealt]

theorem mem_slots (s : Slot) : s ∈ slots := by cases s <;> decide

/-- The operands of a row are those that `syms` lists. -/
def symsFit (r : Op × List Nat × List Elem) : Bool :=
  (slots.all fun s => r.1.syms.contains (.reg s) == (r.2.2.filterMap slotOf).contains s) && (r.1.syms.contains .size == r.2.1.contains 83) &&
    (r.1.syms.contains .cond == r.2.2.contains .cond) && (!r.1.syms.contains (.sec .branchType) || !r.2.2.any isSec) && r.2.2.all (fits (r.1.has .vfpu6bit))

set_option maxRecDepth 100000 in
theorem rows_fit : (Mips.opcodes.zip rowTable).all symsFit = true := by decide +kernel

end Armips.MipsParse
