import Verif.Spec.Shape
/-!
# Specification: the columns of a record that no field shows

Numbered from 1, as in ARINC 424. Most are blank or reserved in the standard.
-/
namespace Spec
open Py

/-- first and last column of each gap -/
abbrev Gaps := List (Nat × Nat)

/-- the gaps of the records of a section, primary or not, for some application types (restriction types for EU),
    and those of all other records of the section -/
def gaps : List (Str × Bool × List (Str × Gaps) × Option Gaps) :=
  [(py!"AS", true, [], some [(2, 4), (7, 13), (21, 30), (121, 123)]),
   (py!"AS", false, [], some [(2, 4), (7, 13), (21, 30), (121, 123)]),
   (py!"D ", true, [], some [(13, 13), (18, 19), (30, 32)]),
   (py!"D ", false, [
      (py!"A", [(13, 13), (18, 19), (93, 123)]),
      (py!"L", [(13, 13), (18, 19), (79, 79), (101, 101), (109, 123)]),
      (py!"P", [(13, 13), (18, 19), (28, 28), (32, 32), (44, 123)]),
      (py!"S", [(13, 13), (18, 19), (24, 27), (33, 74), (85, 123)])], none),
   (py!"DB", true, [], some [(13, 13), (18, 19), (32, 32), (52, 74), (80, 90)]),
   (py!"DB", false, [
      (py!"A", [(13, 13), (18, 19), (93, 123)]),
      (py!"P", [(13, 13), (18, 19), (28, 28), (32, 32), (44, 123)]),
      (py!"Q", [(13, 13), (18, 19), (32, 32), (52, 74), (80, 90)]),
      (py!"S", [(13, 13), (18, 19), (24, 27), (33, 79), (85, 123)])], none),
   (py!"EA", true, [], some [(13, 13), (19, 19), (23, 26), (32, 32), (52, 74), (80, 84), (88, 95)]),
   (py!"EA", false, [
      (py!"A", [(13, 13), (19, 19)]),
      (py!"P", [(13, 13), (19, 19), (44, 123)]),
      (py!"Q", [(13, 13), (19, 19), (23, 26), (32, 32), (52, 74), (80, 84), (88, 95)])], none),
   (py!"EM", true, [], some [(7, 13), (18, 19), (27, 27), (30, 32), (56, 74), (88, 93)]),
   (py!"EM", false, [(py!"A", [(7, 13), (18, 19), (24, 123)])], none),
   (py!"EP", true, [], some [(13, 27), (72, 98)]),
   (py!"EP", false, [(py!"A", [(13, 27), (40, 40), (110, 123)])], none),
   (py!"ER", true, [], some [(7, 13), (19, 25), (60, 62), (83, 83), (102, 123)]),
   (py!"ER", false, [
      (py!"A", [(7, 13), (19, 25), (110, 123)]),
      (py!"P", [(7, 13), (19, 25), (53, 66), (122, 122)]),
      (py!"Q", [(7, 13), (19, 25), (60, 62), (83, 83), (102, 123)])], none),
   (py!"ET", true, [], some [(7, 13), (30, 38), (106, 123)]),
   (py!"ET", false, [
      (py!"A", [(7, 13), (30, 38), (110, 123)]),
      (py!"T", [(7, 13), (30, 38), (113, 123)])], none),
   (py!"EU", true, [
      (py!"AE", [(12, 12), (37, 37)]),
      (py!"TC", [(12, 12), (37, 37), (96, 123)]),
      (py!"SC", [(12, 12), (37, 37), (96, 123)]),
      (py!"NR", [(7, 7), (12, 12), (27, 27), (37, 37), (121, 123)])], none),
   (py!"EU", false, [
      (py!"AE", [(12, 12), (20, 51)]),
      (py!"TC", [(12, 12), (20, 51), (96, 123)]),
      (py!"NR", [(7, 7), (12, 12), (20, 51), (121, 123)])], none),
   (py!"EV", true, [], some [(16, 18), (112, 123)]),
   (py!"EV", false, [
      (py!" ", [(16, 18), (71, 93)]),
      (py!"T", [(16, 18), (58, 60), (121, 123)])], none),
   (py!"HA", true, [], some [(6, 6), (32, 32), (93, 93)]),
   (py!"HA", false, [
      (py!"A", [(6, 6), (93, 123)]),
      (py!"P", [(6, 6), (44, 66), (74, 123)]),
      (py!"Q", [(6, 6), (93, 123)])], none),
   (py!"HC", true, [], some [(6, 6), (19, 19), (23, 26), (32, 32), (52, 74), (80, 84), (88, 95)]),
   (py!"HC", false, [
      (py!"A", [(6, 6), (19, 19), (93, 123)]),
      (py!"P", [(6, 6), (19, 19), (44, 123)])], 
      some [(6, 6), (19, 19), (23, 26), (32, 32), (52, 74), (80, 84), (88, 95)]),
   (py!"HD", true, [], some [(6, 6), (26, 26), (81, 82), (114, 114), (121, 123)]),
   (py!"HD", false, [
      (py!"E", [(6, 6), (26, 26), (86, 89), (93, 118), (121, 123)]),
      (py!"P", [(6, 6), (26, 26), (46, 74), (79, 123)]),
      (py!"W", [(6, 6), (26, 26), (74, 118), (121, 123)])], none),
   (py!"HE", true, [], some [(6, 6), (26, 26), (81, 82), (114, 114), (121, 123)]),
   (py!"HE", false, [
      (py!"E", [(6, 6), (26, 26), (86, 89), (93, 118), (121, 123)]),
      (py!"P", [(6, 6), (26, 26), (46, 74), (79, 123)]),
      (py!"W", [(6, 6), (26, 26), (74, 118), (121, 123)])], none),
   (py!"HF", true, [], some [(6, 6), (26, 26), (81, 82), (114, 114), (121, 123)]),
   (py!"HF", false, [
      (py!"E", [(6, 6), (26, 26), (86, 89), (93, 118), (121, 123)]),
      (py!"P", [(6, 6), (26, 26), (46, 74), (79, 123)]),
      (py!"W", [(6, 6), (26, 26), (74, 118), (121, 123)])], none),
   (py!"HK", true, [], some [(6, 6), (31, 40), (120, 123)]),
   (py!"HK", false, [(py!"A", [(6, 6), (25, 29), (35, 36), (41, 50), (110, 123)])], none),
   (py!"HS", true, [], some [(6, 6), (18, 18), (24, 38), (40, 42), (121, 123)]),
   (py!"HS", false, [(py!"A", [(6, 6), (18, 18), (24, 38), (110, 123)])], none),
   (py!"HV", true, [], some [(6, 6)]),
   (py!"HV", false, [
      (py!"A", [(6, 6), (88, 123)]),
      (py!"T", [(6, 6), (101, 123)])], none),
   (py!"PA", true, [], some [(6, 6), (17, 21), (90, 93)]),
   (py!"PA", false, [
      (py!"A", [(6, 6), (17, 21), (93, 123)]),
      (py!"P", [(6, 6), (17, 21), (44, 66), (74, 123)]),
      (py!"Q", [(6, 6), (17, 21), (90, 93)])], none),
   (py!"PB", true, [], some [(6, 6), (19, 21), (23, 32), (52, 98)]),
   (py!"PB", false, [(py!"A", [(6, 6), (19, 21), (93, 123)])], none),
   (py!"PC", true, [], some [(6, 6), (19, 19), (23, 26), (32, 32), (52, 74), (80, 84), (88, 95)]),
   (py!"PC", false, [
      (py!"A", [(6, 6), (19, 19)]),
      (py!"P", [(6, 6), (19, 19), (44, 123)]),
      (py!"Q", [(6, 6), (19, 19), (23, 26), (32, 32), (52, 74), (80, 84), (88, 95)])], none),
   (py!"PD", true, [], some [(6, 6), (26, 26), (81, 82), (114, 114), (121, 123)]),
   (py!"PD", false, [
      (py!"E", [(6, 6), (26, 26), (86, 89), (93, 118), (121, 123)]),
      (py!"P", [(6, 6), (26, 26), (46, 74), (79, 123)]),
      (py!"W", [(6, 6), (26, 26), (74, 118), (121, 123)])], none),
   (py!"PE", true, [], some [(6, 6), (26, 26), (81, 82), (114, 114), (121, 123)]),
   (py!"PE", false, [
      (py!"E", [(6, 6), (26, 26), (86, 89), (93, 118), (121, 123)]),
      (py!"P", [(6, 6), (26, 26), (46, 74), (79, 123)]),
      (py!"W", [(6, 6), (26, 26), (74, 118), (121, 123)])], none),
   (py!"PF", true, [], some [(6, 6), (26, 26), (81, 82), (114, 114), (121, 123)]),
   (py!"PF", false, [
      (py!"E", [(6, 6), (26, 26), (86, 89), (93, 118), (121, 123)]),
      (py!"P", [(6, 6), (26, 26), (46, 74), (79, 123)]),
      (py!"W", [(6, 6), (26, 26), (74, 118), (121, 123)])], none),
   (py!"PG", true, [], some [(6, 6), (19, 21), (32, 32), (57, 60), (96, 101)]),
   (py!"PG", false, [
      (py!"A", [(6, 6), (19, 21), (23, 23), (93, 123)]),
      (py!"S", [(6, 6), (19, 21), (24, 51), (58, 65), (72, 123)])], none),
   (py!"PI", true, [], some [(6, 6), (19, 21), (111, 123)]),
   (py!"PI", false, [
      (py!"A", [(6, 6), (19, 21), (23, 23), (93, 123)]),
      (py!"S", [(6, 6), (19, 21), (24, 27), (33, 51), (58, 87), (121, 123)])], none),
   (py!"PK", true, [], some [(6, 6), (31, 40), (120, 123)]),
   (py!"PK", false, [(py!"A", [(6, 6), (25, 29), (35, 36), (41, 50), (110, 123)])], none),
   (py!"PL", true, [], some [(6, 6), (19, 21), (26, 27)]),
   (py!"PL", false, [(py!"A", [(6, 6), (19, 21), (24, 27), (80, 83), (99, 100), (110, 123)])], none),
   (py!"PM", true, [], some [(6, 6), (21, 21), (84, 84), (89, 90), (96, 97), (103, 123)]),
   (py!"PM", false, [(py!"A", [(6, 6), (21, 21), (24, 123)])], none),
   (py!"PN", true, [], some [(13, 13), (18, 19), (32, 32), (52, 74), (80, 90)]),
   (py!"PN", false, [
      (py!"A", [(13, 13), (18, 19), (93, 123)]),
      (py!"P", [(13, 13), (18, 19), (28, 28), (32, 32), (44, 123)]),
      (py!"Q", [(13, 13), (18, 19), (32, 32), (52, 74), (80, 90)]),
      (py!"S", [(13, 13), (18, 19), (24, 27), (33, 79), (85, 123)])], none),
   (py!"PP", true, [], some [(6, 6)]),
   (py!"PP", false, [(py!"E", [(6, 6), (62, 71), (75, 123)])], none),
   (py!"PR", true, [], some [(6, 6), (121, 123)]),
   (py!"PR", false, [
      (py!"A", [(6, 6), (79, 91), (94, 106), (118, 118)]),
      (py!"T", [(6, 6)])], none),
   (py!"PS", true, [], some [(6, 6), (18, 18), (24, 38), (40, 42), (121, 123)]),
   (py!"PS", false, [(py!"A", [(6, 6), (18, 18), (24, 38), (110, 123)])], none),
   (py!"PT", true, [], some [(6, 6), (22, 22), (33, 51), (79, 83), (96, 97), (109, 110), (116, 123)]),
   (py!"PT", false, [(py!"A", [(6, 6), (22, 22), (24, 123)])], none),
   (py!"PV", true, [], some [(6, 6)]),
   (py!"PV", false, [(py!"N", [(6, 6), (88, 123)])], none),
   (py!"R ", true, [], some [(22, 22), (61, 61), (72, 72), (95, 123)]),
   (py!"R ", false, [], some [(22, 22), (61, 61), (72, 72), (95, 123)]),
   (py!"RA", true, [], some [(18, 19), (34, 35), (50, 51), (66, 67), (82, 83), (98, 99), (114, 123)]),
   (py!"RA", false, [], some [(18, 19), (34, 35), (50, 51), (66, 67), (82, 83), (98, 99), (114, 123)]),
   (py!"TC", true, [], some [(2, 4), (10, 28), (38, 39), (100, 123)]),
   (py!"TC", false, [], some [(2, 4), (10, 28), (38, 39), (100, 123)]),
   (py!"TG", true, [], some [(40, 40), (113, 123)]),
   (py!"TG", false, [(py!"A", [(41, 123)])], none),
   (py!"UC", true, [], some [(9, 9), (18, 19), (29, 30)]),
   (py!"UC", false, [(py!"A", [(9, 9), (18, 19)])], none),
   (py!"UF", true, [], some [(32, 32), (98, 98)]),
   (py!"UF", false, [(py!"A", [(22, 123)])], none),
   (py!"UR", true, [], some [(29, 30), (79, 82)]),
   (py!"UR", false, [
      (py!"T", [(29, 29)]),
      (py!"P", [(27, 29), (42, 123)]),
      (py!"C", [(29, 29)])], none)]

/-- the gaps of a record of section `k`, primary or not, with application type `a` -/
def gapsOf (k : Str) (primary : Bool) (a : Str) : Gaps :=
  match gaps.find? (fun e => e.1 = k && e.2.1 = primary) with
  | none => []
  | some e => match e.2.2.1.lookup a, e.2.2.2 with
    | some g, _ => g
    | none, some g => g
    | none, none => []

/-- column `i`, counted from 0, is in a gap -/
def Hidden (k : Str) (primary : Bool) (a : Str) (i : Nat) : Prop :=
  ∃ g ∈ gapsOf k primary a, g.1 ≤ i + 1 ∧ i + 1 ≤ g.2

end Spec
