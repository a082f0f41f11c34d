import Verif.Spec.Collision

/-! The disturbance vectors themselves, positions -5 … 79 (data, generated; checked in `DvCheck`). -/

namespace Verif

def dw0 : List Nat := [
  0x80000000, 0x80000000, 0xa0000000, 0x40000000, 0x0, 0x60000000, 0x80000000, 0x80000000, 0x80000000,
  0x0, 0x0, 0x40000000, 0x0, 0xa0000000, 0x80000000, 0xa0000000, 0x0, 0x80000000,
  0x0, 0xc0000000, 0x0, 0x80000000, 0x80000000, 0x40000000, 0x0, 0x80000000, 0x80000000,
  0x40000000, 0x0, 0x0, 0x80000000, 0xc0000000, 0x0, 0x80000000, 0x80000000, 0x0,
  0x0, 0x80000000, 0x0, 0x0, 0x0, 0x80000000, 0x0, 0x80000000, 0x0,
  0x80000000, 0x0, 0x80000000, 0x0, 0x0, 0x0, 0x0, 0x0, 0x0,
  0x0, 0x0, 0x0, 0x0, 0x0, 0x0, 0x0, 0x0, 0x0,
  0x1, 0x0, 0x0, 0x2, 0x0, 0x0, 0x4, 0x0, 0x2,
  0x8, 0x0, 0x0, 0x10, 0x0, 0xa, 0x20, 0x6, 0x0,
  0x40, 0x8, 0x28, 0x80]

def dw1 : List Nat := [
  0x50000000, 0x80000000, 0x80000000, 0xa0000000, 0x40000000, 0x0, 0x60000000, 0x80000000, 0x80000000,
  0x80000000, 0x0, 0x0, 0x40000000, 0x0, 0xa0000000, 0x80000000, 0xa0000000, 0x0,
  0x80000000, 0x0, 0xc0000000, 0x0, 0x80000000, 0x80000000, 0x40000000, 0x0, 0x80000000,
  0x80000000, 0x40000000, 0x0, 0x0, 0x80000000, 0xc0000000, 0x0, 0x80000000, 0x80000000,
  0x0, 0x0, 0x80000000, 0x0, 0x0, 0x0, 0x80000000, 0x0, 0x80000000,
  0x0, 0x80000000, 0x0, 0x80000000, 0x0, 0x0, 0x0, 0x0, 0x0,
  0x0, 0x0, 0x0, 0x0, 0x0, 0x0, 0x0, 0x0, 0x0,
  0x0, 0x1, 0x0, 0x0, 0x2, 0x0, 0x0, 0x4, 0x0,
  0x2, 0x8, 0x0, 0x0, 0x10, 0x0, 0xa, 0x20, 0x6,
  0x0, 0x40, 0x8, 0x28]

def dw2 : List Nat := [
  0x0, 0x50000000, 0x80000000, 0x80000000, 0xa0000000, 0x40000000, 0x0, 0x60000000, 0x80000000,
  0x80000000, 0x80000000, 0x0, 0x0, 0x40000000, 0x0, 0xa0000000, 0x80000000, 0xa0000000,
  0x0, 0x80000000, 0x0, 0xc0000000, 0x0, 0x80000000, 0x80000000, 0x40000000, 0x0,
  0x80000000, 0x80000000, 0x40000000, 0x0, 0x0, 0x80000000, 0xc0000000, 0x0, 0x80000000,
  0x80000000, 0x0, 0x0, 0x80000000, 0x0, 0x0, 0x0, 0x80000000, 0x0,
  0x80000000, 0x0, 0x80000000, 0x0, 0x80000000, 0x0, 0x0, 0x0, 0x0,
  0x0, 0x0, 0x0, 0x0, 0x0, 0x0, 0x0, 0x0, 0x0,
  0x0, 0x0, 0x1, 0x0, 0x0, 0x2, 0x0, 0x0, 0x4,
  0x0, 0x2, 0x8, 0x0, 0x0, 0x10, 0x0, 0xa, 0x20,
  0x6, 0x0, 0x40, 0x8]

def dw3 : List Nat := [
  0x60000000, 0x0, 0x50000000, 0x80000000, 0x80000000, 0xa0000000, 0x40000000, 0x0, 0x60000000,
  0x80000000, 0x80000000, 0x80000000, 0x0, 0x0, 0x40000000, 0x0, 0xa0000000, 0x80000000,
  0xa0000000, 0x0, 0x80000000, 0x0, 0xc0000000, 0x0, 0x80000000, 0x80000000, 0x40000000,
  0x0, 0x80000000, 0x80000000, 0x40000000, 0x0, 0x0, 0x80000000, 0xc0000000, 0x0,
  0x80000000, 0x80000000, 0x0, 0x0, 0x80000000, 0x0, 0x0, 0x0, 0x80000000,
  0x0, 0x80000000, 0x0, 0x80000000, 0x0, 0x80000000, 0x0, 0x0, 0x0,
  0x0, 0x0, 0x0, 0x0, 0x0, 0x0, 0x0, 0x0, 0x0,
  0x0, 0x0, 0x0, 0x1, 0x0, 0x0, 0x2, 0x0, 0x0,
  0x4, 0x0, 0x2, 0x8, 0x0, 0x0, 0x10, 0x0, 0xa,
  0x20, 0x6, 0x0, 0x40]

def dw4 : List Nat := [
  0x80000001, 0x0, 0x40000001, 0x2, 0x2, 0x80000002, 0x1, 0x0, 0x80000001,
  0x2, 0x2, 0x2, 0x0, 0x0, 0x1, 0x0, 0x80000002, 0x2,
  0x80000002, 0x0, 0x2, 0x0, 0x3, 0x0, 0x2, 0x2, 0x1,
  0x0, 0x2, 0x2, 0x1, 0x0, 0x0, 0x2, 0x3, 0x0,
  0x2, 0x2, 0x0, 0x0, 0x2, 0x0, 0x0, 0x0, 0x2,
  0x0, 0x2, 0x0, 0x2, 0x0, 0x2, 0x0, 0x0, 0x0,
  0x0, 0x0, 0x0, 0x0, 0x0, 0x0, 0x0, 0x0, 0x0,
  0x0, 0x0, 0x0, 0x4, 0x0, 0x0, 0x8, 0x0, 0x0,
  0x10, 0x0, 0x8, 0x20, 0x0, 0x0, 0x40, 0x0, 0x28,
  0x80, 0x18, 0x0, 0x100]

def dw5 : List Nat := [
  0x0, 0x60000000, 0x0, 0x50000000, 0x80000000, 0x80000000, 0xa0000000, 0x40000000, 0x0,
  0x60000000, 0x80000000, 0x80000000, 0x80000000, 0x0, 0x0, 0x40000000, 0x0, 0xa0000000,
  0x80000000, 0xa0000000, 0x0, 0x80000000, 0x0, 0xc0000000, 0x0, 0x80000000, 0x80000000,
  0x40000000, 0x0, 0x80000000, 0x80000000, 0x40000000, 0x0, 0x0, 0x80000000, 0xc0000000,
  0x0, 0x80000000, 0x80000000, 0x0, 0x0, 0x80000000, 0x0, 0x0, 0x0,
  0x80000000, 0x0, 0x80000000, 0x0, 0x80000000, 0x0, 0x80000000, 0x0, 0x0,
  0x0, 0x0, 0x0, 0x0, 0x0, 0x0, 0x0, 0x0, 0x0,
  0x0, 0x0, 0x0, 0x0, 0x1, 0x0, 0x0, 0x2, 0x0,
  0x0, 0x4, 0x0, 0x2, 0x8, 0x0, 0x0, 0x10, 0x0,
  0xa, 0x20, 0x6, 0x0]

def dw6 : List Nat := [
  0x0, 0x80000001, 0x0, 0x40000001, 0x2, 0x2, 0x80000002, 0x1, 0x0,
  0x80000001, 0x2, 0x2, 0x2, 0x0, 0x0, 0x1, 0x0, 0x80000002,
  0x2, 0x80000002, 0x0, 0x2, 0x0, 0x3, 0x0, 0x2, 0x2,
  0x1, 0x0, 0x2, 0x2, 0x1, 0x0, 0x0, 0x2, 0x3,
  0x0, 0x2, 0x2, 0x0, 0x0, 0x2, 0x0, 0x0, 0x0,
  0x2, 0x0, 0x2, 0x0, 0x2, 0x0, 0x2, 0x0, 0x0,
  0x0, 0x0, 0x0, 0x0, 0x0, 0x0, 0x0, 0x0, 0x0,
  0x0, 0x0, 0x0, 0x0, 0x4, 0x0, 0x0, 0x8, 0x0,
  0x0, 0x10, 0x0, 0x8, 0x20, 0x0, 0x0, 0x40, 0x0,
  0x28, 0x80, 0x18, 0x0]

def dw7 : List Nat := [
  0x80000000, 0x0, 0x60000000, 0x0, 0x50000000, 0x80000000, 0x80000000, 0xa0000000, 0x40000000,
  0x0, 0x60000000, 0x80000000, 0x80000000, 0x80000000, 0x0, 0x0, 0x40000000, 0x0,
  0xa0000000, 0x80000000, 0xa0000000, 0x0, 0x80000000, 0x0, 0xc0000000, 0x0, 0x80000000,
  0x80000000, 0x40000000, 0x0, 0x80000000, 0x80000000, 0x40000000, 0x0, 0x0, 0x80000000,
  0xc0000000, 0x0, 0x80000000, 0x80000000, 0x0, 0x0, 0x80000000, 0x0, 0x0,
  0x0, 0x80000000, 0x0, 0x80000000, 0x0, 0x80000000, 0x0, 0x80000000, 0x0,
  0x0, 0x0, 0x0, 0x0, 0x0, 0x0, 0x0, 0x0, 0x0,
  0x0, 0x0, 0x0, 0x0, 0x0, 0x1, 0x0, 0x0, 0x2,
  0x0, 0x0, 0x4, 0x0, 0x2, 0x8, 0x0, 0x0, 0x10,
  0x0, 0xa, 0x20, 0x6]

def dw8 : List Nat := [
  0x2, 0x0, 0x80000001, 0x0, 0x40000001, 0x2, 0x2, 0x80000002, 0x1,
  0x0, 0x80000001, 0x2, 0x2, 0x2, 0x0, 0x0, 0x1, 0x0,
  0x80000002, 0x2, 0x80000002, 0x0, 0x2, 0x0, 0x3, 0x0, 0x2,
  0x2, 0x1, 0x0, 0x2, 0x2, 0x1, 0x0, 0x0, 0x2,
  0x3, 0x0, 0x2, 0x2, 0x0, 0x0, 0x2, 0x0, 0x0,
  0x0, 0x2, 0x0, 0x2, 0x0, 0x2, 0x0, 0x2, 0x0,
  0x0, 0x0, 0x0, 0x0, 0x0, 0x0, 0x0, 0x0, 0x0,
  0x0, 0x0, 0x0, 0x0, 0x0, 0x4, 0x0, 0x0, 0x8,
  0x0, 0x0, 0x10, 0x0, 0x8, 0x20, 0x0, 0x0, 0x40,
  0x0, 0x28, 0x80, 0x18]

def dw9 : List Nat := [
  0x20000000, 0x80000000, 0x0, 0x60000000, 0x0, 0x50000000, 0x80000000, 0x80000000, 0xa0000000,
  0x40000000, 0x0, 0x60000000, 0x80000000, 0x80000000, 0x80000000, 0x0, 0x0, 0x40000000,
  0x0, 0xa0000000, 0x80000000, 0xa0000000, 0x0, 0x80000000, 0x0, 0xc0000000, 0x0,
  0x80000000, 0x80000000, 0x40000000, 0x0, 0x80000000, 0x80000000, 0x40000000, 0x0, 0x0,
  0x80000000, 0xc0000000, 0x0, 0x80000000, 0x80000000, 0x0, 0x0, 0x80000000, 0x0,
  0x0, 0x0, 0x80000000, 0x0, 0x80000000, 0x0, 0x80000000, 0x0, 0x80000000,
  0x0, 0x0, 0x0, 0x0, 0x0, 0x0, 0x0, 0x0, 0x0,
  0x0, 0x0, 0x0, 0x0, 0x0, 0x0, 0x1, 0x0, 0x0,
  0x2, 0x0, 0x0, 0x4, 0x0, 0x2, 0x8, 0x0, 0x0,
  0x10, 0x0, 0xa, 0x20]

def dw10 : List Nat := [
  0x80000000, 0x2, 0x0, 0x80000001, 0x0, 0x40000001, 0x2, 0x2, 0x80000002,
  0x1, 0x0, 0x80000001, 0x2, 0x2, 0x2, 0x0, 0x0, 0x1,
  0x0, 0x80000002, 0x2, 0x80000002, 0x0, 0x2, 0x0, 0x3, 0x0,
  0x2, 0x2, 0x1, 0x0, 0x2, 0x2, 0x1, 0x0, 0x0,
  0x2, 0x3, 0x0, 0x2, 0x2, 0x0, 0x0, 0x2, 0x0,
  0x0, 0x0, 0x2, 0x0, 0x2, 0x0, 0x2, 0x0, 0x2,
  0x0, 0x0, 0x0, 0x0, 0x0, 0x0, 0x0, 0x0, 0x0,
  0x0, 0x0, 0x0, 0x0, 0x0, 0x0, 0x4, 0x0, 0x0,
  0x8, 0x0, 0x0, 0x10, 0x0, 0x8, 0x20, 0x0, 0x0,
  0x40, 0x0, 0x28, 0x80]

def dw11 : List Nat := [
  0x80000000, 0x20000000, 0x80000000, 0x0, 0x60000000, 0x0, 0x50000000, 0x80000000, 0x80000000,
  0xa0000000, 0x40000000, 0x0, 0x60000000, 0x80000000, 0x80000000, 0x80000000, 0x0, 0x0,
  0x40000000, 0x0, 0xa0000000, 0x80000000, 0xa0000000, 0x0, 0x80000000, 0x0, 0xc0000000,
  0x0, 0x80000000, 0x80000000, 0x40000000, 0x0, 0x80000000, 0x80000000, 0x40000000, 0x0,
  0x0, 0x80000000, 0xc0000000, 0x0, 0x80000000, 0x80000000, 0x0, 0x0, 0x80000000,
  0x0, 0x0, 0x0, 0x80000000, 0x0, 0x80000000, 0x0, 0x80000000, 0x0,
  0x80000000, 0x0, 0x0, 0x0, 0x0, 0x0, 0x0, 0x0, 0x0,
  0x0, 0x0, 0x0, 0x0, 0x0, 0x0, 0x0, 0x1, 0x0,
  0x0, 0x2, 0x0, 0x0, 0x4, 0x0, 0x2, 0x8, 0x0,
  0x0, 0x10, 0x0, 0xa]

def dw12 : List Nat := [
  0x2, 0x80000000, 0x2, 0x0, 0x80000001, 0x0, 0x40000001, 0x2, 0x2,
  0x80000002, 0x1, 0x0, 0x80000001, 0x2, 0x2, 0x2, 0x0, 0x0,
  0x1, 0x0, 0x80000002, 0x2, 0x80000002, 0x0, 0x2, 0x0, 0x3,
  0x0, 0x2, 0x2, 0x1, 0x0, 0x2, 0x2, 0x1, 0x0,
  0x0, 0x2, 0x3, 0x0, 0x2, 0x2, 0x0, 0x0, 0x2,
  0x0, 0x0, 0x0, 0x2, 0x0, 0x2, 0x0, 0x2, 0x0,
  0x2, 0x0, 0x0, 0x0, 0x0, 0x0, 0x0, 0x0, 0x0,
  0x0, 0x0, 0x0, 0x0, 0x0, 0x0, 0x0, 0x4, 0x0,
  0x0, 0x8, 0x0, 0x0, 0x10, 0x0, 0x8, 0x20, 0x0,
  0x0, 0x40, 0x0, 0x28]

def dw13 : List Nat := [
  0x80000000, 0x80000000, 0x20000000, 0x80000000, 0x0, 0x60000000, 0x0, 0x50000000, 0x80000000,
  0x80000000, 0xa0000000, 0x40000000, 0x0, 0x60000000, 0x80000000, 0x80000000, 0x80000000, 0x0,
  0x0, 0x40000000, 0x0, 0xa0000000, 0x80000000, 0xa0000000, 0x0, 0x80000000, 0x0,
  0xc0000000, 0x0, 0x80000000, 0x80000000, 0x40000000, 0x0, 0x80000000, 0x80000000, 0x40000000,
  0x0, 0x0, 0x80000000, 0xc0000000, 0x0, 0x80000000, 0x80000000, 0x0, 0x0,
  0x80000000, 0x0, 0x0, 0x0, 0x80000000, 0x0, 0x80000000, 0x0, 0x80000000,
  0x0, 0x80000000, 0x0, 0x0, 0x0, 0x0, 0x0, 0x0, 0x0,
  0x0, 0x0, 0x0, 0x0, 0x0, 0x0, 0x0, 0x0, 0x1,
  0x0, 0x0, 0x2, 0x0, 0x0, 0x4, 0x0, 0x2, 0x8,
  0x0, 0x0, 0x10, 0x0]

def dw14 : List Nat := [
  0x2, 0x2, 0x80000000, 0x2, 0x0, 0x80000001, 0x0, 0x40000001, 0x2,
  0x2, 0x80000002, 0x1, 0x0, 0x80000001, 0x2, 0x2, 0x2, 0x0,
  0x0, 0x1, 0x0, 0x80000002, 0x2, 0x80000002, 0x0, 0x2, 0x0,
  0x3, 0x0, 0x2, 0x2, 0x1, 0x0, 0x2, 0x2, 0x1,
  0x0, 0x0, 0x2, 0x3, 0x0, 0x2, 0x2, 0x0, 0x0,
  0x2, 0x0, 0x0, 0x0, 0x2, 0x0, 0x2, 0x0, 0x2,
  0x0, 0x2, 0x0, 0x0, 0x0, 0x0, 0x0, 0x0, 0x0,
  0x0, 0x0, 0x0, 0x0, 0x0, 0x0, 0x0, 0x0, 0x4,
  0x0, 0x0, 0x8, 0x0, 0x0, 0x10, 0x0, 0x8, 0x20,
  0x0, 0x0, 0x40, 0x0]

def dw15 : List Nat := [
  0x90000000, 0x80000000, 0x80000000, 0x20000000, 0x80000000, 0x0, 0x60000000, 0x0, 0x50000000,
  0x80000000, 0x80000000, 0xa0000000, 0x40000000, 0x0, 0x60000000, 0x80000000, 0x80000000, 0x80000000,
  0x0, 0x0, 0x40000000, 0x0, 0xa0000000, 0x80000000, 0xa0000000, 0x0, 0x80000000,
  0x0, 0xc0000000, 0x0, 0x80000000, 0x80000000, 0x40000000, 0x0, 0x80000000, 0x80000000,
  0x40000000, 0x0, 0x0, 0x80000000, 0xc0000000, 0x0, 0x80000000, 0x80000000, 0x0,
  0x0, 0x80000000, 0x0, 0x0, 0x0, 0x80000000, 0x0, 0x80000000, 0x0,
  0x80000000, 0x0, 0x80000000, 0x0, 0x0, 0x0, 0x0, 0x0, 0x0,
  0x0, 0x0, 0x0, 0x0, 0x0, 0x0, 0x0, 0x0, 0x0,
  0x1, 0x0, 0x0, 0x2, 0x0, 0x0, 0x4, 0x0, 0x2,
  0x8, 0x0, 0x0, 0x10]

def dw16 : List Nat := [
  0x20000000, 0xd0000000, 0x80000000, 0xe0000000, 0xa0000000, 0x10000000, 0x80000000, 0xe0000000, 0x20000000,
  0xc0000000, 0x80000000, 0x60000000, 0x80000000, 0xc0000000, 0x80000000, 0xa0000000, 0x80000000, 0xe0000000,
  0x0, 0x20000000, 0x80000000, 0x60000000, 0x0, 0x0, 0x80000000, 0x80000000, 0x0,
  0x0, 0x0, 0x0, 0x0, 0x80000000, 0x0, 0x80000000, 0x0, 0x80000000,
  0x0, 0xc0000000, 0x0, 0x0, 0x80000000, 0x0, 0x0, 0x0, 0x0,
  0x80000000, 0x0, 0x0, 0x0, 0x0, 0x0, 0x80000000, 0x0, 0x80000000,
  0x0, 0x0, 0x0, 0x0, 0x0, 0x0, 0x0, 0x0, 0x0,
  0x0, 0x0, 0x1, 0x0, 0x0, 0x2, 0x1, 0x0, 0x4,
  0x2, 0x2, 0x8, 0x4, 0x0, 0x12, 0x8, 0xa, 0x20,
  0x16, 0x0, 0x4a, 0x28]

def dw17 : List Nat := [
  0xe0000000, 0x20000000, 0xd0000000, 0x80000000, 0xe0000000, 0xa0000000, 0x10000000, 0x80000000, 0xe0000000,
  0x20000000, 0xc0000000, 0x80000000, 0x60000000, 0x80000000, 0xc0000000, 0x80000000, 0xa0000000, 0x80000000,
  0xe0000000, 0x0, 0x20000000, 0x80000000, 0x60000000, 0x0, 0x0, 0x80000000, 0x80000000,
  0x0, 0x0, 0x0, 0x0, 0x0, 0x80000000, 0x0, 0x80000000, 0x0,
  0x80000000, 0x0, 0xc0000000, 0x0, 0x0, 0x80000000, 0x0, 0x0, 0x0,
  0x0, 0x80000000, 0x0, 0x0, 0x0, 0x0, 0x0, 0x80000000, 0x0,
  0x80000000, 0x0, 0x0, 0x0, 0x0, 0x0, 0x0, 0x0, 0x0,
  0x0, 0x0, 0x0, 0x1, 0x0, 0x0, 0x2, 0x1, 0x0,
  0x4, 0x2, 0x2, 0x8, 0x4, 0x0, 0x12, 0x8, 0xa,
  0x20, 0x16, 0x0, 0x4a]

def dw18 : List Nat := [
  0x80000003, 0x80000000, 0x40000003, 0x2, 0x80000003, 0x80000002, 0x40000000, 0x2, 0x80000003,
  0x80000000, 0x3, 0x2, 0x80000001, 0x2, 0x3, 0x2, 0x80000002, 0x2,
  0x80000003, 0x0, 0x80000000, 0x2, 0x80000001, 0x0, 0x0, 0x2, 0x2,
  0x0, 0x0, 0x0, 0x0, 0x0, 0x2, 0x0, 0x2, 0x0,
  0x2, 0x0, 0x3, 0x0, 0x0, 0x2, 0x0, 0x0, 0x0,
  0x0, 0x2, 0x0, 0x0, 0x0, 0x0, 0x0, 0x2, 0x0,
  0x2, 0x0, 0x0, 0x0, 0x0, 0x0, 0x0, 0x0, 0x0,
  0x0, 0x0, 0x0, 0x4, 0x0, 0x0, 0x8, 0x4, 0x0,
  0x10, 0x8, 0x8, 0x20, 0x10, 0x0, 0x48, 0x20, 0x28,
  0x80, 0x58, 0x0, 0x128]

def dw19 : List Nat := [
  0x80000000, 0xe0000000, 0x20000000, 0xd0000000, 0x80000000, 0xe0000000, 0xa0000000, 0x10000000, 0x80000000,
  0xe0000000, 0x20000000, 0xc0000000, 0x80000000, 0x60000000, 0x80000000, 0xc0000000, 0x80000000, 0xa0000000,
  0x80000000, 0xe0000000, 0x0, 0x20000000, 0x80000000, 0x60000000, 0x0, 0x0, 0x80000000,
  0x80000000, 0x0, 0x0, 0x0, 0x0, 0x0, 0x80000000, 0x0, 0x80000000,
  0x0, 0x80000000, 0x0, 0xc0000000, 0x0, 0x0, 0x80000000, 0x0, 0x0,
  0x0, 0x0, 0x80000000, 0x0, 0x0, 0x0, 0x0, 0x0, 0x80000000,
  0x0, 0x80000000, 0x0, 0x0, 0x0, 0x0, 0x0, 0x0, 0x0,
  0x0, 0x0, 0x0, 0x0, 0x1, 0x0, 0x0, 0x2, 0x1,
  0x0, 0x4, 0x2, 0x2, 0x8, 0x4, 0x0, 0x12, 0x8,
  0xa, 0x20, 0x16, 0x0]

def dw20 : List Nat := [
  0x10000000, 0x80000000, 0xe0000000, 0x20000000, 0xd0000000, 0x80000000, 0xe0000000, 0xa0000000, 0x10000000,
  0x80000000, 0xe0000000, 0x20000000, 0xc0000000, 0x80000000, 0x60000000, 0x80000000, 0xc0000000, 0x80000000,
  0xa0000000, 0x80000000, 0xe0000000, 0x0, 0x20000000, 0x80000000, 0x60000000, 0x0, 0x0,
  0x80000000, 0x80000000, 0x0, 0x0, 0x0, 0x0, 0x0, 0x80000000, 0x0,
  0x80000000, 0x0, 0x80000000, 0x0, 0xc0000000, 0x0, 0x0, 0x80000000, 0x0,
  0x0, 0x0, 0x0, 0x80000000, 0x0, 0x0, 0x0, 0x0, 0x0,
  0x80000000, 0x0, 0x80000000, 0x0, 0x0, 0x0, 0x0, 0x0, 0x0,
  0x0, 0x0, 0x0, 0x0, 0x0, 0x1, 0x0, 0x0, 0x2,
  0x1, 0x0, 0x4, 0x2, 0x2, 0x8, 0x4, 0x0, 0x12,
  0x8, 0xa, 0x20, 0x16]

def dw21 : List Nat := [
  0xa0000000, 0x10000000, 0x80000000, 0xe0000000, 0x20000000, 0xd0000000, 0x80000000, 0xe0000000, 0xa0000000,
  0x10000000, 0x80000000, 0xe0000000, 0x20000000, 0xc0000000, 0x80000000, 0x60000000, 0x80000000, 0xc0000000,
  0x80000000, 0xa0000000, 0x80000000, 0xe0000000, 0x0, 0x20000000, 0x80000000, 0x60000000, 0x0,
  0x0, 0x80000000, 0x80000000, 0x0, 0x0, 0x0, 0x0, 0x0, 0x80000000,
  0x0, 0x80000000, 0x0, 0x80000000, 0x0, 0xc0000000, 0x0, 0x0, 0x80000000,
  0x0, 0x0, 0x0, 0x0, 0x80000000, 0x0, 0x0, 0x0, 0x0,
  0x0, 0x80000000, 0x0, 0x80000000, 0x0, 0x0, 0x0, 0x0, 0x0,
  0x0, 0x0, 0x0, 0x0, 0x0, 0x0, 0x1, 0x0, 0x0,
  0x2, 0x1, 0x0, 0x4, 0x2, 0x2, 0x8, 0x4, 0x0,
  0x12, 0x8, 0xa, 0x20]

def dw22 : List Nat := [
  0x80000002, 0x40000000, 0x2, 0x80000003, 0x80000000, 0x40000003, 0x2, 0x80000003, 0x80000002,
  0x40000000, 0x2, 0x80000003, 0x80000000, 0x3, 0x2, 0x80000001, 0x2, 0x3,
  0x2, 0x80000002, 0x2, 0x80000003, 0x0, 0x80000000, 0x2, 0x80000001, 0x0,
  0x0, 0x2, 0x2, 0x0, 0x0, 0x0, 0x0, 0x0, 0x2,
  0x0, 0x2, 0x0, 0x2, 0x0, 0x3, 0x0, 0x0, 0x2,
  0x0, 0x0, 0x0, 0x0, 0x2, 0x0, 0x0, 0x0, 0x0,
  0x0, 0x2, 0x0, 0x2, 0x0, 0x0, 0x0, 0x0, 0x0,
  0x0, 0x0, 0x0, 0x0, 0x0, 0x0, 0x4, 0x0, 0x0,
  0x8, 0x4, 0x0, 0x10, 0x8, 0x8, 0x20, 0x10, 0x0,
  0x48, 0x20, 0x28, 0x80]

def dw23 : List Nat := [
  0xe0000000, 0xa0000000, 0x10000000, 0x80000000, 0xe0000000, 0x20000000, 0xd0000000, 0x80000000, 0xe0000000,
  0xa0000000, 0x10000000, 0x80000000, 0xe0000000, 0x20000000, 0xc0000000, 0x80000000, 0x60000000, 0x80000000,
  0xc0000000, 0x80000000, 0xa0000000, 0x80000000, 0xe0000000, 0x0, 0x20000000, 0x80000000, 0x60000000,
  0x0, 0x0, 0x80000000, 0x80000000, 0x0, 0x0, 0x0, 0x0, 0x0,
  0x80000000, 0x0, 0x80000000, 0x0, 0x80000000, 0x0, 0xc0000000, 0x0, 0x0,
  0x80000000, 0x0, 0x0, 0x0, 0x0, 0x80000000, 0x0, 0x0, 0x0,
  0x0, 0x0, 0x80000000, 0x0, 0x80000000, 0x0, 0x0, 0x0, 0x0,
  0x0, 0x0, 0x0, 0x0, 0x0, 0x0, 0x0, 0x1, 0x0,
  0x0, 0x2, 0x1, 0x0, 0x4, 0x2, 0x2, 0x8, 0x4,
  0x0, 0x12, 0x8, 0xa]

def dw24 : List Nat := [
  0x80000003, 0x80000002, 0x40000000, 0x2, 0x80000003, 0x80000000, 0x40000003, 0x2, 0x80000003,
  0x80000002, 0x40000000, 0x2, 0x80000003, 0x80000000, 0x3, 0x2, 0x80000001, 0x2,
  0x3, 0x2, 0x80000002, 0x2, 0x80000003, 0x0, 0x80000000, 0x2, 0x80000001,
  0x0, 0x0, 0x2, 0x2, 0x0, 0x0, 0x0, 0x0, 0x0,
  0x2, 0x0, 0x2, 0x0, 0x2, 0x0, 0x3, 0x0, 0x0,
  0x2, 0x0, 0x0, 0x0, 0x0, 0x2, 0x0, 0x0, 0x0,
  0x0, 0x0, 0x2, 0x0, 0x2, 0x0, 0x0, 0x0, 0x0,
  0x0, 0x0, 0x0, 0x0, 0x0, 0x0, 0x0, 0x4, 0x0,
  0x0, 0x8, 0x4, 0x0, 0x10, 0x8, 0x8, 0x20, 0x10,
  0x0, 0x48, 0x20, 0x28]

def dw25 : List Nat := [
  0x80000000, 0xe0000000, 0xa0000000, 0x10000000, 0x80000000, 0xe0000000, 0x20000000, 0xd0000000, 0x80000000,
  0xe0000000, 0xa0000000, 0x10000000, 0x80000000, 0xe0000000, 0x20000000, 0xc0000000, 0x80000000, 0x60000000,
  0x80000000, 0xc0000000, 0x80000000, 0xa0000000, 0x80000000, 0xe0000000, 0x0, 0x20000000, 0x80000000,
  0x60000000, 0x0, 0x0, 0x80000000, 0x80000000, 0x0, 0x0, 0x0, 0x0,
  0x0, 0x80000000, 0x0, 0x80000000, 0x0, 0x80000000, 0x0, 0xc0000000, 0x0,
  0x0, 0x80000000, 0x0, 0x0, 0x0, 0x0, 0x80000000, 0x0, 0x0,
  0x0, 0x0, 0x0, 0x80000000, 0x0, 0x80000000, 0x0, 0x0, 0x0,
  0x0, 0x0, 0x0, 0x0, 0x0, 0x0, 0x0, 0x0, 0x1,
  0x0, 0x0, 0x2, 0x1, 0x0, 0x4, 0x2, 0x2, 0x8,
  0x4, 0x0, 0x12, 0x8]

def dw26 : List Nat := [
  0x2, 0x80000003, 0x80000002, 0x40000000, 0x2, 0x80000003, 0x80000000, 0x40000003, 0x2,
  0x80000003, 0x80000002, 0x40000000, 0x2, 0x80000003, 0x80000000, 0x3, 0x2, 0x80000001,
  0x2, 0x3, 0x2, 0x80000002, 0x2, 0x80000003, 0x0, 0x80000000, 0x2,
  0x80000001, 0x0, 0x0, 0x2, 0x2, 0x0, 0x0, 0x0, 0x0,
  0x0, 0x2, 0x0, 0x2, 0x0, 0x2, 0x0, 0x3, 0x0,
  0x0, 0x2, 0x0, 0x0, 0x0, 0x0, 0x2, 0x0, 0x0,
  0x0, 0x0, 0x0, 0x2, 0x0, 0x2, 0x0, 0x0, 0x0,
  0x0, 0x0, 0x0, 0x0, 0x0, 0x0, 0x0, 0x0, 0x4,
  0x0, 0x0, 0x8, 0x4, 0x0, 0x10, 0x8, 0x8, 0x20,
  0x10, 0x0, 0x48, 0x20]

def dw27 : List Nat := [
  0xd0000000, 0x80000000, 0xe0000000, 0xa0000000, 0x10000000, 0x80000000, 0xe0000000, 0x20000000, 0xd0000000,
  0x80000000, 0xe0000000, 0xa0000000, 0x10000000, 0x80000000, 0xe0000000, 0x20000000, 0xc0000000, 0x80000000,
  0x60000000, 0x80000000, 0xc0000000, 0x80000000, 0xa0000000, 0x80000000, 0xe0000000, 0x0, 0x20000000,
  0x80000000, 0x60000000, 0x0, 0x0, 0x80000000, 0x80000000, 0x0, 0x0, 0x0,
  0x0, 0x0, 0x80000000, 0x0, 0x80000000, 0x0, 0x80000000, 0x0, 0xc0000000,
  0x0, 0x0, 0x80000000, 0x0, 0x0, 0x0, 0x0, 0x80000000, 0x0,
  0x0, 0x0, 0x0, 0x0, 0x80000000, 0x0, 0x80000000, 0x0, 0x0,
  0x0, 0x0, 0x0, 0x0, 0x0, 0x0, 0x0, 0x0, 0x0,
  0x1, 0x0, 0x0, 0x2, 0x1, 0x0, 0x4, 0x2, 0x2,
  0x8, 0x4, 0x0, 0x12]

def dw28 : List Nat := [
  0xa0000000, 0xd0000000, 0x80000000, 0xe0000000, 0xa0000000, 0x10000000, 0x80000000, 0xe0000000, 0x20000000,
  0xd0000000, 0x80000000, 0xe0000000, 0xa0000000, 0x10000000, 0x80000000, 0xe0000000, 0x20000000, 0xc0000000,
  0x80000000, 0x60000000, 0x80000000, 0xc0000000, 0x80000000, 0xa0000000, 0x80000000, 0xe0000000, 0x0,
  0x20000000, 0x80000000, 0x60000000, 0x0, 0x0, 0x80000000, 0x80000000, 0x0, 0x0,
  0x0, 0x0, 0x0, 0x80000000, 0x0, 0x80000000, 0x0, 0x80000000, 0x0,
  0xc0000000, 0x0, 0x0, 0x80000000, 0x0, 0x0, 0x0, 0x0, 0x80000000,
  0x0, 0x0, 0x0, 0x0, 0x0, 0x80000000, 0x0, 0x80000000, 0x0,
  0x0, 0x0, 0x0, 0x0, 0x0, 0x0, 0x0, 0x0, 0x0,
  0x0, 0x1, 0x0, 0x0, 0x2, 0x1, 0x0, 0x4, 0x2,
  0x2, 0x8, 0x4, 0x0]

def dw29 : List Nat := [
  0xe0000000, 0xa0000000, 0xd0000000, 0x80000000, 0xe0000000, 0xa0000000, 0x10000000, 0x80000000, 0xe0000000,
  0x20000000, 0xd0000000, 0x80000000, 0xe0000000, 0xa0000000, 0x10000000, 0x80000000, 0xe0000000, 0x20000000,
  0xc0000000, 0x80000000, 0x60000000, 0x80000000, 0xc0000000, 0x80000000, 0xa0000000, 0x80000000, 0xe0000000,
  0x0, 0x20000000, 0x80000000, 0x60000000, 0x0, 0x0, 0x80000000, 0x80000000, 0x0,
  0x0, 0x0, 0x0, 0x0, 0x80000000, 0x0, 0x80000000, 0x0, 0x80000000,
  0x0, 0xc0000000, 0x0, 0x0, 0x80000000, 0x0, 0x0, 0x0, 0x0,
  0x80000000, 0x0, 0x0, 0x0, 0x0, 0x0, 0x80000000, 0x0, 0x80000000,
  0x0, 0x0, 0x0, 0x0, 0x0, 0x0, 0x0, 0x0, 0x0,
  0x0, 0x0, 0x1, 0x0, 0x0, 0x2, 0x1, 0x0, 0x4,
  0x2, 0x2, 0x8, 0x4]

def dw30 : List Nat := [
  0x80000000, 0xe0000000, 0xa0000000, 0xd0000000, 0x80000000, 0xe0000000, 0xa0000000, 0x10000000, 0x80000000,
  0xe0000000, 0x20000000, 0xd0000000, 0x80000000, 0xe0000000, 0xa0000000, 0x10000000, 0x80000000, 0xe0000000,
  0x20000000, 0xc0000000, 0x80000000, 0x60000000, 0x80000000, 0xc0000000, 0x80000000, 0xa0000000, 0x80000000,
  0xe0000000, 0x0, 0x20000000, 0x80000000, 0x60000000, 0x0, 0x0, 0x80000000, 0x80000000,
  0x0, 0x0, 0x0, 0x0, 0x0, 0x80000000, 0x0, 0x80000000, 0x0,
  0x80000000, 0x0, 0xc0000000, 0x0, 0x0, 0x80000000, 0x0, 0x0, 0x0,
  0x0, 0x80000000, 0x0, 0x0, 0x0, 0x0, 0x0, 0x80000000, 0x0,
  0x80000000, 0x0, 0x0, 0x0, 0x0, 0x0, 0x0, 0x0, 0x0,
  0x0, 0x0, 0x0, 0x1, 0x0, 0x0, 0x2, 0x1, 0x0,
  0x4, 0x2, 0x2, 0x8]

def dw31 : List Nat := [
  0x78000000, 0x80000000, 0xe0000000, 0xa0000000, 0xd0000000, 0x80000000, 0xe0000000, 0xa0000000, 0x10000000,
  0x80000000, 0xe0000000, 0x20000000, 0xd0000000, 0x80000000, 0xe0000000, 0xa0000000, 0x10000000, 0x80000000,
  0xe0000000, 0x20000000, 0xc0000000, 0x80000000, 0x60000000, 0x80000000, 0xc0000000, 0x80000000, 0xa0000000,
  0x80000000, 0xe0000000, 0x0, 0x20000000, 0x80000000, 0x60000000, 0x0, 0x0, 0x80000000,
  0x80000000, 0x0, 0x0, 0x0, 0x0, 0x0, 0x80000000, 0x0, 0x80000000,
  0x0, 0x80000000, 0x0, 0xc0000000, 0x0, 0x0, 0x80000000, 0x0, 0x0,
  0x0, 0x0, 0x80000000, 0x0, 0x0, 0x0, 0x0, 0x0, 0x80000000,
  0x0, 0x80000000, 0x0, 0x0, 0x0, 0x0, 0x0, 0x0, 0x0,
  0x0, 0x0, 0x0, 0x0, 0x1, 0x0, 0x0, 0x2, 0x1,
  0x0, 0x4, 0x2, 0x2]

def dwTable : List (List Nat) :=
  [dw0, dw1, dw2, dw3, dw4, dw5, dw6, dw7, dw8, dw9, dw10,
   dw11, dw12, dw13, dw14, dw15, dw16, dw17, dw18, dw19, dw20, dw21,
   dw22, dw23, dw24, dw25, dw26, dw27, dw28, dw29, dw30, dw31]

end Verif
