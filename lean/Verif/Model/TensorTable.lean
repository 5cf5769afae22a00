import Verif.Py.Nd
import Verif.Py.Expr
import Verif.Model.TensorSym

/-!
# Model of `shgpy/tensor_definitions.py` and of the symbols of `shgpy/shg_symbols.py` that it uses

The tables are generated from the source text.  An element is written as in the source: `[]` is `0`, `[xxy]` is `xxy`,
`[-yxz]` is `-yxz`, `[-xxyx, -xyxx, -yxxx]` is `-xxyx - xyxx - yxxx`.  The names stand for numbers (one more than the
position of the element of that name in the flattened array), from which `tensorSym` builds the sympy symbol.
-/

namespace Shgpy

/-- The base 3 digits of `n`, `r` of them. -/
def digits3 : ℕ → ℕ → List ℕ
  | 0, _ => []
  | r + 1, n => (n / 3 ^ r % 3) :: digits3 r n

/-- The position of an index tuple in the flattened array. -/
def position : List ℕ → ℕ
  | [] => 0
  | i :: is => i * 3 ^ is.length + position is

/-- The name of an axis. -/
def axisName (i : ℕ) : Char := if i = 0 then 'x' else if i = 1 then 'y' else 'z'

/-- The symbols `xxx = sp.symbols('xxx')` and so on of shg_symbols.py:15-280: the `n`-th of the symbols with `r` letters,
with the given prefix (`s` for the symbols of the surface tensors). -/
def tensorSym (pre : Key) (r n : ℕ) : Sym := ⟨pre ++ (digits3 r n).map axisName, 0⟩

/-- The symbol of a signed number. -/
def signedSym (pre : Key) (r : ℕ) (c : ℤ) : Expr := .sym (tensorSym pre r (c.natAbs - 1))

/-- An element: a sum and difference of symbols, evaluated from the left. -/
def elementExpr (S : Sympy) (pre : Key) (r : ℕ) : List ℤ → Expr
  | [] => .num 0
  | c :: l =>
      l.foldl (fun a d => if d < 0 then S.sub a (signedSym pre r d) else S.add a (signedSym pre r d))
        (if c < 0 then S.norm (.mul [.num (-1), signedSym pre r c]) else signedSym pre r c)

/-- `np.array([[[...], ...], ...], dtype=object)` with 3 values for each of `r` indices, from the flattened list. -/
def tensorArray (S : Sympy) (pre : Key) (r : ℕ) (flat : List (List ℤ)) : Nd Expr :=
  ⟨List.replicate r 3, fun idx => (flat.map (elementExpr S pre r)).getD (position idx) (.num 0)⟩

namespace TensorDef

/-- shg_symbols.py, `xxx`. -/
abbrev xxx : ℤ := 1
/-- shg_symbols.py, `xxy`. -/
abbrev xxy : ℤ := 2
/-- shg_symbols.py, `xxz`. -/
abbrev xxz : ℤ := 3
/-- shg_symbols.py, `xyx`. -/
abbrev xyx : ℤ := 4
/-- shg_symbols.py, `xyy`. -/
abbrev xyy : ℤ := 5
/-- shg_symbols.py, `xyz`. -/
abbrev xyz : ℤ := 6
/-- shg_symbols.py, `xzx`. -/
abbrev xzx : ℤ := 7
/-- shg_symbols.py, `xzy`. -/
abbrev xzy : ℤ := 8
/-- shg_symbols.py, `xzz`. -/
abbrev xzz : ℤ := 9
/-- shg_symbols.py, `yxx`. -/
abbrev yxx : ℤ := 10
/-- shg_symbols.py, `yxy`. -/
abbrev yxy : ℤ := 11
/-- shg_symbols.py, `yxz`. -/
abbrev yxz : ℤ := 12
/-- shg_symbols.py, `yyx`. -/
abbrev yyx : ℤ := 13
/-- shg_symbols.py, `yyy`. -/
abbrev yyy : ℤ := 14
/-- shg_symbols.py, `yyz`. -/
abbrev yyz : ℤ := 15
/-- shg_symbols.py, `yzx`. -/
abbrev yzx : ℤ := 16
/-- shg_symbols.py, `yzy`. -/
abbrev yzy : ℤ := 17
/-- shg_symbols.py, `yzz`. -/
abbrev yzz : ℤ := 18
/-- shg_symbols.py, `zxx`. -/
abbrev zxx : ℤ := 19
/-- shg_symbols.py, `zxy`. -/
abbrev zxy : ℤ := 20
/-- shg_symbols.py, `zxz`. -/
abbrev zxz : ℤ := 21
/-- shg_symbols.py, `zyx`. -/
abbrev zyx : ℤ := 22
/-- shg_symbols.py, `zyy`. -/
abbrev zyy : ℤ := 23
/-- shg_symbols.py, `zyz`. -/
abbrev zyz : ℤ := 24
/-- shg_symbols.py, `zzx`. -/
abbrev zzx : ℤ := 25
/-- shg_symbols.py, `zzy`. -/
abbrev zzy : ℤ := 26
/-- shg_symbols.py, `zzz`. -/
abbrev zzz : ℤ := 27
/-- shg_symbols.py, `sxxx`. -/
abbrev sxxx : ℤ := 1
/-- shg_symbols.py, `sxxy`. -/
abbrev sxxy : ℤ := 2
/-- shg_symbols.py, `sxxz`. -/
abbrev sxxz : ℤ := 3
/-- shg_symbols.py, `sxyx`. -/
abbrev sxyx : ℤ := 4
/-- shg_symbols.py, `sxyy`. -/
abbrev sxyy : ℤ := 5
/-- shg_symbols.py, `sxyz`. -/
abbrev sxyz : ℤ := 6
/-- shg_symbols.py, `sxzx`. -/
abbrev sxzx : ℤ := 7
/-- shg_symbols.py, `sxzy`. -/
abbrev sxzy : ℤ := 8
/-- shg_symbols.py, `sxzz`. -/
abbrev sxzz : ℤ := 9
/-- shg_symbols.py, `syxx`. -/
abbrev syxx : ℤ := 10
/-- shg_symbols.py, `syxy`. -/
abbrev syxy : ℤ := 11
/-- shg_symbols.py, `syxz`. -/
abbrev syxz : ℤ := 12
/-- shg_symbols.py, `syyx`. -/
abbrev syyx : ℤ := 13
/-- shg_symbols.py, `syyy`. -/
abbrev syyy : ℤ := 14
/-- shg_symbols.py, `syyz`. -/
abbrev syyz : ℤ := 15
/-- shg_symbols.py, `syzx`. -/
abbrev syzx : ℤ := 16
/-- shg_symbols.py, `syzy`. -/
abbrev syzy : ℤ := 17
/-- shg_symbols.py, `syzz`. -/
abbrev syzz : ℤ := 18
/-- shg_symbols.py, `szxx`. -/
abbrev szxx : ℤ := 19
/-- shg_symbols.py, `szxy`. -/
abbrev szxy : ℤ := 20
/-- shg_symbols.py, `szxz`. -/
abbrev szxz : ℤ := 21
/-- shg_symbols.py, `szyx`. -/
abbrev szyx : ℤ := 22
/-- shg_symbols.py, `szyy`. -/
abbrev szyy : ℤ := 23
/-- shg_symbols.py, `szyz`. -/
abbrev szyz : ℤ := 24
/-- shg_symbols.py, `szzx`. -/
abbrev szzx : ℤ := 25
/-- shg_symbols.py, `szzy`. -/
abbrev szzy : ℤ := 26
/-- shg_symbols.py, `szzz`. -/
abbrev szzz : ℤ := 27
/-- shg_symbols.py, `xxxx`. -/
abbrev xxxx : ℤ := 1
/-- shg_symbols.py, `xxxy`. -/
abbrev xxxy : ℤ := 2
/-- shg_symbols.py, `xxxz`. -/
abbrev xxxz : ℤ := 3
/-- shg_symbols.py, `xxyx`. -/
abbrev xxyx : ℤ := 4
/-- shg_symbols.py, `xxyy`. -/
abbrev xxyy : ℤ := 5
/-- shg_symbols.py, `xxyz`. -/
abbrev xxyz : ℤ := 6
/-- shg_symbols.py, `xxzx`. -/
abbrev xxzx : ℤ := 7
/-- shg_symbols.py, `xxzy`. -/
abbrev xxzy : ℤ := 8
/-- shg_symbols.py, `xxzz`. -/
abbrev xxzz : ℤ := 9
/-- shg_symbols.py, `xyxx`. -/
abbrev xyxx : ℤ := 10
/-- shg_symbols.py, `xyxy`. -/
abbrev xyxy : ℤ := 11
/-- shg_symbols.py, `xyxz`. -/
abbrev xyxz : ℤ := 12
/-- shg_symbols.py, `xyyx`. -/
abbrev xyyx : ℤ := 13
/-- shg_symbols.py, `xyyy`. -/
abbrev xyyy : ℤ := 14
/-- shg_symbols.py, `xyyz`. -/
abbrev xyyz : ℤ := 15
/-- shg_symbols.py, `xyzx`. -/
abbrev xyzx : ℤ := 16
/-- shg_symbols.py, `xyzy`. -/
abbrev xyzy : ℤ := 17
/-- shg_symbols.py, `xyzz`. -/
abbrev xyzz : ℤ := 18
/-- shg_symbols.py, `xzxx`. -/
abbrev xzxx : ℤ := 19
/-- shg_symbols.py, `xzxy`. -/
abbrev xzxy : ℤ := 20
/-- shg_symbols.py, `xzxz`. -/
abbrev xzxz : ℤ := 21
/-- shg_symbols.py, `xzyx`. -/
abbrev xzyx : ℤ := 22
/-- shg_symbols.py, `xzyy`. -/
abbrev xzyy : ℤ := 23
/-- shg_symbols.py, `xzyz`. -/
abbrev xzyz : ℤ := 24
/-- shg_symbols.py, `xzzx`. -/
abbrev xzzx : ℤ := 25
/-- shg_symbols.py, `xzzy`. -/
abbrev xzzy : ℤ := 26
/-- shg_symbols.py, `xzzz`. -/
abbrev xzzz : ℤ := 27
/-- shg_symbols.py, `yxxx`. -/
abbrev yxxx : ℤ := 28
/-- shg_symbols.py, `yxxy`. -/
abbrev yxxy : ℤ := 29
/-- shg_symbols.py, `yxxz`. -/
abbrev yxxz : ℤ := 30
/-- shg_symbols.py, `yxyx`. -/
abbrev yxyx : ℤ := 31
/-- shg_symbols.py, `yxyy`. -/
abbrev yxyy : ℤ := 32
/-- shg_symbols.py, `yxyz`. -/
abbrev yxyz : ℤ := 33
/-- shg_symbols.py, `yxzx`. -/
abbrev yxzx : ℤ := 34
/-- shg_symbols.py, `yxzy`. -/
abbrev yxzy : ℤ := 35
/-- shg_symbols.py, `yxzz`. -/
abbrev yxzz : ℤ := 36
/-- shg_symbols.py, `yyxx`. -/
abbrev yyxx : ℤ := 37
/-- shg_symbols.py, `yyxy`. -/
abbrev yyxy : ℤ := 38
/-- shg_symbols.py, `yyxz`. -/
abbrev yyxz : ℤ := 39
/-- shg_symbols.py, `yyyx`. -/
abbrev yyyx : ℤ := 40
/-- shg_symbols.py, `yyyy`. -/
abbrev yyyy : ℤ := 41
/-- shg_symbols.py, `yyyz`. -/
abbrev yyyz : ℤ := 42
/-- shg_symbols.py, `yyzx`. -/
abbrev yyzx : ℤ := 43
/-- shg_symbols.py, `yyzy`. -/
abbrev yyzy : ℤ := 44
/-- shg_symbols.py, `yyzz`. -/
abbrev yyzz : ℤ := 45
/-- shg_symbols.py, `yzxx`. -/
abbrev yzxx : ℤ := 46
/-- shg_symbols.py, `yzxy`. -/
abbrev yzxy : ℤ := 47
/-- shg_symbols.py, `yzxz`. -/
abbrev yzxz : ℤ := 48
/-- shg_symbols.py, `yzyx`. -/
abbrev yzyx : ℤ := 49
/-- shg_symbols.py, `yzyy`. -/
abbrev yzyy : ℤ := 50
/-- shg_symbols.py, `yzyz`. -/
abbrev yzyz : ℤ := 51
/-- shg_symbols.py, `yzzx`. -/
abbrev yzzx : ℤ := 52
/-- shg_symbols.py, `yzzy`. -/
abbrev yzzy : ℤ := 53
/-- shg_symbols.py, `yzzz`. -/
abbrev yzzz : ℤ := 54
/-- shg_symbols.py, `zxxx`. -/
abbrev zxxx : ℤ := 55
/-- shg_symbols.py, `zxxy`. -/
abbrev zxxy : ℤ := 56
/-- shg_symbols.py, `zxxz`. -/
abbrev zxxz : ℤ := 57
/-- shg_symbols.py, `zxyx`. -/
abbrev zxyx : ℤ := 58
/-- shg_symbols.py, `zxyy`. -/
abbrev zxyy : ℤ := 59
/-- shg_symbols.py, `zxyz`. -/
abbrev zxyz : ℤ := 60
/-- shg_symbols.py, `zxzx`. -/
abbrev zxzx : ℤ := 61
/-- shg_symbols.py, `zxzy`. -/
abbrev zxzy : ℤ := 62
/-- shg_symbols.py, `zxzz`. -/
abbrev zxzz : ℤ := 63
/-- shg_symbols.py, `zyxx`. -/
abbrev zyxx : ℤ := 64
/-- shg_symbols.py, `zyxy`. -/
abbrev zyxy : ℤ := 65
/-- shg_symbols.py, `zyxz`. -/
abbrev zyxz : ℤ := 66
/-- shg_symbols.py, `zyyx`. -/
abbrev zyyx : ℤ := 67
/-- shg_symbols.py, `zyyy`. -/
abbrev zyyy : ℤ := 68
/-- shg_symbols.py, `zyyz`. -/
abbrev zyyz : ℤ := 69
/-- shg_symbols.py, `zyzx`. -/
abbrev zyzx : ℤ := 70
/-- shg_symbols.py, `zyzy`. -/
abbrev zyzy : ℤ := 71
/-- shg_symbols.py, `zyzz`. -/
abbrev zyzz : ℤ := 72
/-- shg_symbols.py, `zzxx`. -/
abbrev zzxx : ℤ := 73
/-- shg_symbols.py, `zzxy`. -/
abbrev zzxy : ℤ := 74
/-- shg_symbols.py, `zzxz`. -/
abbrev zzxz : ℤ := 75
/-- shg_symbols.py, `zzyx`. -/
abbrev zzyx : ℤ := 76
/-- shg_symbols.py, `zzyy`. -/
abbrev zzyy : ℤ := 77
/-- shg_symbols.py, `zzyz`. -/
abbrev zzyz : ℤ := 78
/-- shg_symbols.py, `zzzx`. -/
abbrev zzzx : ℤ := 79
/-- shg_symbols.py, `zzzy`. -/
abbrev zzzy : ℤ := 80
/-- shg_symbols.py, `zzzz`. -/
abbrev zzzz : ℤ := 81

/-- `dipole['S_2']`, tensor_definitions.py:74. -/
def dipole_S_2 : List (List ℤ) :=
  [[], [], [], [], [], [], [], [], [],
   [], [], [], [], [], [], [], [], [],
   [], [], [], [], [], [], [], [], []]

/-- `dipole['C_2h']`, tensor_definitions.py:75. -/
def dipole_C_2h : List (List ℤ) :=
  [[], [], [], [], [], [], [], [], [],
   [], [], [], [], [], [], [], [], [],
   [], [], [], [], [], [], [], [], []]

/-- `dipole['D_2h']`, tensor_definitions.py:76. -/
def dipole_D_2h : List (List ℤ) :=
  [[], [], [], [], [], [], [], [], [],
   [], [], [], [], [], [], [], [], [],
   [], [], [], [], [], [], [], [], []]

/-- `dipole['C_4h']`, tensor_definitions.py:77. -/
def dipole_C_4h : List (List ℤ) :=
  [[], [], [], [], [], [], [], [], [],
   [], [], [], [], [], [], [], [], [],
   [], [], [], [], [], [], [], [], []]

/-- `dipole['D_4h']`, tensor_definitions.py:78. -/
def dipole_D_4h : List (List ℤ) :=
  [[], [], [], [], [], [], [], [], [],
   [], [], [], [], [], [], [], [], [],
   [], [], [], [], [], [], [], [], []]

/-- `dipole['T_h']`, tensor_definitions.py:79. -/
def dipole_T_h : List (List ℤ) :=
  [[], [], [], [], [], [], [], [], [],
   [], [], [], [], [], [], [], [], [],
   [], [], [], [], [], [], [], [], []]

/-- `dipole['O_h']`, tensor_definitions.py:80. -/
def dipole_O_h : List (List ℤ) :=
  [[], [], [], [], [], [], [], [], [],
   [], [], [], [], [], [], [], [], [],
   [], [], [], [], [], [], [], [], []]

/-- `dipole['S_6']`, tensor_definitions.py:81. -/
def dipole_S_6 : List (List ℤ) :=
  [[], [], [], [], [], [], [], [], [],
   [], [], [], [], [], [], [], [], [],
   [], [], [], [], [], [], [], [], []]

/-- `dipole['D_3d']`, tensor_definitions.py:82. -/
def dipole_D_3d : List (List ℤ) :=
  [[], [], [], [], [], [], [], [], [],
   [], [], [], [], [], [], [], [], [],
   [], [], [], [], [], [], [], [], []]

/-- `dipole['C_6h']`, tensor_definitions.py:83. -/
def dipole_C_6h : List (List ℤ) :=
  [[], [], [], [], [], [], [], [], [],
   [], [], [], [], [], [], [], [], [],
   [], [], [], [], [], [], [], [], []]

/-- `dipole['D_6h']`, tensor_definitions.py:84. -/
def dipole_D_6h : List (List ℤ) :=
  [[], [], [], [], [], [], [], [], [],
   [], [], [], [], [], [], [], [], [],
   [], [], [], [], [], [], [], [], []]

/-- `dipole['C_2']`, tensor_definitions.py:85. -/
def dipole_C_2 : List (List ℤ) :=
  [[], [xxy], [], [xyx], [], [xyz], [], [xzy], [],
   [yxx], [], [yxz], [], [yyy], [], [yzx], [], [yzz],
   [], [zxy], [], [zyx], [], [zyz], [], [zzy], []]

/-- `dipole['C_1h']`, tensor_definitions.py:86. -/
def dipole_C_1h : List (List ℤ) :=
  [[xxx], [], [xxz], [], [xyy], [], [xzx], [], [xzz],
   [], [yxy], [], [yyx], [], [yyz], [], [yzy], [],
   [zxx], [], [zxz], [], [zyy], [], [zzx], [], [zzz]]

/-- `dipole['D_2']`, tensor_definitions.py:87. -/
def dipole_D_2 : List (List ℤ) :=
  [[], [], [], [], [], [xyz], [], [xzy], [],
   [], [], [yxz], [], [], [], [yzx], [], [],
   [], [zxy], [], [zyx], [], [], [], [], []]

/-- `dipole['C_2v']`, tensor_definitions.py:88. -/
def dipole_C_2v : List (List ℤ) :=
  [[], [], [xxz], [], [], [], [xzx], [], [],
   [], [], [], [], [], [yyz], [], [yzy], [],
   [zxx], [], [], [], [zyy], [], [], [], [zzz]]

/-- `dipole['C_4']`, tensor_definitions.py:89. -/
def dipole_C_4 : List (List ℤ) :=
  [[], [], [yyz], [], [], [-yxz], [yzy], [-yzx], [],
   [], [], [yxz], [], [], [yyz], [yzx], [yzy], [],
   [zyy], [-zyx], [], [zyx], [zyy], [], [], [], [zzz]]

/-- `dipole['S_4']`, tensor_definitions.py:90. -/
def dipole_S_4 : List (List ℤ) :=
  [[], [], [-yyz], [], [], [yxz], [-yzy], [yzx], [],
   [], [], [yxz], [], [], [yyz], [yzx], [yzy], [],
   [-zyy], [zyx], [], [zyx], [zyy], [], [], [], []]

/-- `dipole['D_4']`, tensor_definitions.py:91. -/
def dipole_D_4 : List (List ℤ) :=
  [[], [], [], [], [], [-yxz], [], [-yzx], [],
   [], [], [yxz], [], [], [], [yzx], [], [],
   [], [-zyx], [], [zyx], [], [], [], [], []]

/-- `dipole['C_4v']`, tensor_definitions.py:92. -/
def dipole_C_4v : List (List ℤ) :=
  [[], [], [yyz], [], [], [], [yzy], [], [],
   [], [], [], [], [], [yyz], [], [yzy], [],
   [zyy], [], [], [], [zyy], [], [], [], [zzz]]

/-- `dipole['D_2d']`, tensor_definitions.py:93. -/
def dipole_D_2d : List (List ℤ) :=
  [[], [], [], [], [], [yxz], [], [yzx], [],
   [], [], [yxz], [], [], [], [yzx], [], [],
   [], [zyx], [], [zyx], [], [], [], [], []]

/-- `dipole['O']`, tensor_definitions.py:94. -/
def dipole_O : List (List ℤ) :=
  [[], [], [], [], [], [-zyx], [], [zyx], [],
   [], [], [zyx], [], [], [], [-zyx], [], [],
   [], [-zyx], [], [zyx], [], [], [], [], []]

/-- `dipole['T_d']`, tensor_definitions.py:95. -/
def dipole_T_d : List (List ℤ) :=
  [[], [], [], [], [], [zyx], [], [zyx], [],
   [], [], [zyx], [], [], [], [zyx], [], [],
   [], [zyx], [], [zyx], [], [], [], [], []]

/-- `dipole['T']`, tensor_definitions.py:96. -/
def dipole_T : List (List ℤ) :=
  [[], [], [], [], [], [zxy], [], [zyx], [],
   [], [], [zyx], [], [], [], [zxy], [], [],
   [], [zxy], [], [zyx], [], [], [], [], []]

/-- `dipole['D_3']`, tensor_definitions.py:97. -/
def dipole_D_3 : List (List ℤ) :=
  [[-yxy], [], [], [], [yxy], [-yxz], [], [-yzx], [],
   [], [yxy], [yxz], [yxy], [], [], [yzx], [], [],
   [], [-zyx], [], [zyx], [], [], [], [], []]

/-- `dipole['C_3']`, tensor_definitions.py:98. -/
def dipole_C_3 : List (List ℤ) :=
  [[xxx], [-yyy], [yyz], [-yyy], [-xxx], [-yxz], [yzy], [-yzx], [],
   [-yyy], [-xxx], [yxz], [-xxx], [yyy], [yyz], [yzx], [yzy], [],
   [zyy], [-zyx], [], [zyx], [zyy], [], [], [], [zzz]]

/-- `dipole['C_3v']`, tensor_definitions.py:99. -/
def dipole_C_3v : List (List ℤ) :=
  [[], [xyx], [yyz], [xyx], [], [], [yzy], [], [],
   [xyx], [], [], [], [-xyx], [yyz], [], [yzy], [],
   [zyy], [], [], [], [zyy], [], [], [], [zzz]]

/-- `dipole['C_6']`, tensor_definitions.py:100. -/
def dipole_C_6 : List (List ℤ) :=
  [[], [], [yyz], [], [], [-yxz], [yzy], [-yzx], [],
   [], [], [yxz], [], [], [yyz], [yzx], [yzy], [],
   [zyy], [-zyx], [], [zyx], [zyy], [], [], [], [zzz]]

/-- `dipole['C_3h']`, tensor_definitions.py:101. -/
def dipole_C_3h : List (List ℤ) :=
  [[-yyx], [xxy], [], [xxy], [yyx], [], [], [], [],
   [xxy], [yyx], [], [yyx], [-xxy], [], [], [], [],
   [], [], [], [], [], [], [], [], []]

/-- `dipole['C_6v']`, tensor_definitions.py:102. -/
def dipole_C_6v : List (List ℤ) :=
  [[], [], [yyz], [], [], [], [yzy], [], [],
   [], [], [], [], [], [yyz], [], [yzy], [],
   [zyy], [], [], [], [zyy], [], [], [], [zzz]]

/-- `dipole['D_6']`, tensor_definitions.py:103. -/
def dipole_D_6 : List (List ℤ) :=
  [[], [], [], [], [], [-yxz], [], [-yzx], [],
   [], [], [yxz], [], [], [], [yzx], [], [],
   [], [-zyx], [], [zyx], [], [], [], [], []]

/-- `dipole['D_3h']`, tensor_definitions.py:104. -/
def dipole_D_3h : List (List ℤ) :=
  [[], [xyx], [], [xyx], [], [], [], [], [],
   [xyx], [], [], [], [-xyx], [], [], [], [],
   [], [], [], [], [], [], [], [], []]

/-- `dipole['C_1']`, tensor_definitions.py:105. -/
def dipole_C_1 : List (List ℤ) :=
  [[xxx], [xxy], [xxz], [xyx], [xyy], [xyz], [xzx], [xzy], [xzz],
   [yxx], [yxy], [yxz], [yyx], [yyy], [yyz], [yzx], [yzy], [yzz],
   [zxx], [zxy], [zxz], [zyx], [zyy], [zyz], [zzx], [zzy], [zzz]]

/-- The entries of `dipole`, in the order of the source. -/
def dipoleTable : Dict Key (List (List ℤ)) :=
  [(['S', '_', '2'], dipole_S_2),
   (['C', '_', '2', 'h'], dipole_C_2h),
   (['D', '_', '2', 'h'], dipole_D_2h),
   (['C', '_', '4', 'h'], dipole_C_4h),
   (['D', '_', '4', 'h'], dipole_D_4h),
   (['T', '_', 'h'], dipole_T_h),
   (['O', '_', 'h'], dipole_O_h),
   (['S', '_', '6'], dipole_S_6),
   (['D', '_', '3', 'd'], dipole_D_3d),
   (['C', '_', '6', 'h'], dipole_C_6h),
   (['D', '_', '6', 'h'], dipole_D_6h),
   (['C', '_', '2'], dipole_C_2),
   (['C', '_', '1', 'h'], dipole_C_1h),
   (['D', '_', '2'], dipole_D_2),
   (['C', '_', '2', 'v'], dipole_C_2v),
   (['C', '_', '4'], dipole_C_4),
   (['S', '_', '4'], dipole_S_4),
   (['D', '_', '4'], dipole_D_4),
   (['C', '_', '4', 'v'], dipole_C_4v),
   (['D', '_', '2', 'd'], dipole_D_2d),
   (['O'], dipole_O),
   (['T', '_', 'd'], dipole_T_d),
   (['T'], dipole_T),
   (['D', '_', '3'], dipole_D_3),
   (['C', '_', '3'], dipole_C_3),
   (['C', '_', '3', 'v'], dipole_C_3v),
   (['C', '_', '6'], dipole_C_6),
   (['C', '_', '3', 'h'], dipole_C_3h),
   (['C', '_', '6', 'v'], dipole_C_6v),
   (['D', '_', '6'], dipole_D_6),
   (['D', '_', '3', 'h'], dipole_D_3h),
   (['C', '_', '1'], dipole_C_1)]

/-- `surface['S_2']`, tensor_definitions.py:113. -/
def surface_S_2 : List (List ℤ) :=
  [[], [], [], [], [], [], [], [], [],
   [], [], [], [], [], [], [], [], [],
   [], [], [], [], [], [], [], [], []]

/-- `surface['C_2h']`, tensor_definitions.py:114. -/
def surface_C_2h : List (List ℤ) :=
  [[], [], [], [], [], [], [], [], [],
   [], [], [], [], [], [], [], [], [],
   [], [], [], [], [], [], [], [], []]

/-- `surface['D_2h']`, tensor_definitions.py:115. -/
def surface_D_2h : List (List ℤ) :=
  [[], [], [], [], [], [], [], [], [],
   [], [], [], [], [], [], [], [], [],
   [], [], [], [], [], [], [], [], []]

/-- `surface['C_4h']`, tensor_definitions.py:116. -/
def surface_C_4h : List (List ℤ) :=
  [[], [], [], [], [], [], [], [], [],
   [], [], [], [], [], [], [], [], [],
   [], [], [], [], [], [], [], [], []]

/-- `surface['D_4h']`, tensor_definitions.py:117. -/
def surface_D_4h : List (List ℤ) :=
  [[], [], [], [], [], [], [], [], [],
   [], [], [], [], [], [], [], [], [],
   [], [], [], [], [], [], [], [], []]

/-- `surface['T_h']`, tensor_definitions.py:118. -/
def surface_T_h : List (List ℤ) :=
  [[], [], [], [], [], [], [], [], [],
   [], [], [], [], [], [], [], [], [],
   [], [], [], [], [], [], [], [], []]

/-- `surface['O_h']`, tensor_definitions.py:119. -/
def surface_O_h : List (List ℤ) :=
  [[], [], [], [], [], [], [], [], [],
   [], [], [], [], [], [], [], [], [],
   [], [], [], [], [], [], [], [], []]

/-- `surface['S_6']`, tensor_definitions.py:120. -/
def surface_S_6 : List (List ℤ) :=
  [[], [], [], [], [], [], [], [], [],
   [], [], [], [], [], [], [], [], [],
   [], [], [], [], [], [], [], [], []]

/-- `surface['D_3d']`, tensor_definitions.py:121. -/
def surface_D_3d : List (List ℤ) :=
  [[], [], [], [], [], [], [], [], [],
   [], [], [], [], [], [], [], [], [],
   [], [], [], [], [], [], [], [], []]

/-- `surface['C_6h']`, tensor_definitions.py:122. -/
def surface_C_6h : List (List ℤ) :=
  [[], [], [], [], [], [], [], [], [],
   [], [], [], [], [], [], [], [], [],
   [], [], [], [], [], [], [], [], []]

/-- `surface['D_6h']`, tensor_definitions.py:123. -/
def surface_D_6h : List (List ℤ) :=
  [[], [], [], [], [], [], [], [], [],
   [], [], [], [], [], [], [], [], [],
   [], [], [], [], [], [], [], [], []]

/-- `surface['C_2']`, tensor_definitions.py:124. -/
def surface_C_2 : List (List ℤ) :=
  [[], [sxxy], [], [sxyx], [], [sxyz], [], [sxzy], [],
   [syxx], [], [syxz], [], [syyy], [], [syzx], [], [syzz],
   [], [szxy], [], [szyx], [], [szyz], [], [szzy], []]

/-- `surface['C_1h']`, tensor_definitions.py:125. -/
def surface_C_1h : List (List ℤ) :=
  [[sxxx], [], [sxxz], [], [sxyy], [], [sxzx], [], [sxzz],
   [], [syxy], [], [syyx], [], [syyz], [], [syzy], [],
   [szxx], [], [szxz], [], [szyy], [], [szzx], [], [szzz]]

/-- `surface['D_2']`, tensor_definitions.py:126. -/
def surface_D_2 : List (List ℤ) :=
  [[], [], [], [], [], [sxyz], [], [sxzy], [],
   [], [], [syxz], [], [], [], [syzx], [], [],
   [], [szxy], [], [szyx], [], [], [], [], []]

/-- `surface['C_2v']`, tensor_definitions.py:127. -/
def surface_C_2v : List (List ℤ) :=
  [[], [], [sxxz], [], [], [], [sxzx], [], [],
   [], [], [], [], [], [syyz], [], [syzy], [],
   [szxx], [], [], [], [szyy], [], [], [], [szzz]]

/-- `surface['C_4']`, tensor_definitions.py:128. -/
def surface_C_4 : List (List ℤ) :=
  [[], [], [syyz], [], [], [-syxz], [syzy], [-syzx], [],
   [], [], [syxz], [], [], [syyz], [syzx], [syzy], [],
   [szyy], [-szyx], [], [szyx], [szyy], [], [], [], [szzz]]

/-- `surface['S_4']`, tensor_definitions.py:129. -/
def surface_S_4 : List (List ℤ) :=
  [[], [], [-syyz], [], [], [syxz], [-syzy], [syzx], [],
   [], [], [syxz], [], [], [syyz], [syzx], [syzy], [],
   [-szyy], [szyx], [], [szyx], [szyy], [], [], [], []]

/-- `surface['D_4']`, tensor_definitions.py:130. -/
def surface_D_4 : List (List ℤ) :=
  [[], [], [], [], [], [-syxz], [], [-syzx], [],
   [], [], [syxz], [], [], [], [syzx], [], [],
   [], [-szyx], [], [szyx], [], [], [], [], []]

/-- `surface['C_4v']`, tensor_definitions.py:131. -/
def surface_C_4v : List (List ℤ) :=
  [[], [], [syyz], [], [], [], [syzy], [], [],
   [], [], [], [], [], [syyz], [], [syzy], [],
   [szyy], [], [], [], [szyy], [], [], [], [szzz]]

/-- `surface['D_2d']`, tensor_definitions.py:132. -/
def surface_D_2d : List (List ℤ) :=
  [[], [], [], [], [], [syxz], [], [syzx], [],
   [], [], [syxz], [], [], [], [syzx], [], [],
   [], [szyx], [], [szyx], [], [], [], [], []]

/-- `surface['O']`, tensor_definitions.py:133. -/
def surface_O : List (List ℤ) :=
  [[], [], [], [], [], [-szyx], [], [szyx], [],
   [], [], [szyx], [], [], [], [-szyx], [], [],
   [], [-szyx], [], [szyx], [], [], [], [], []]

/-- `surface['T_d']`, tensor_definitions.py:134. -/
def surface_T_d : List (List ℤ) :=
  [[], [], [], [], [], [szyx], [], [szyx], [],
   [], [], [szyx], [], [], [], [szyx], [], [],
   [], [szyx], [], [szyx], [], [], [], [], []]

/-- `surface['T']`, tensor_definitions.py:135. -/
def surface_T : List (List ℤ) :=
  [[], [], [], [], [], [szxy], [], [szyx], [],
   [], [], [szyx], [], [], [], [szxy], [], [],
   [], [szxy], [], [szyx], [], [], [], [], []]

/-- `surface['D_3']`, tensor_definitions.py:136. -/
def surface_D_3 : List (List ℤ) :=
  [[-syxy], [], [], [], [syxy], [-syxz], [], [-syzx], [],
   [], [syxy], [syxz], [syxy], [], [], [syzx], [], [],
   [], [-szyx], [], [szyx], [], [], [], [], []]

/-- `surface['C_3']`, tensor_definitions.py:137. -/
def surface_C_3 : List (List ℤ) :=
  [[sxxx], [-syyy], [syyz], [-syyy], [-sxxx], [-syxz], [syzy], [-syzx], [],
   [-syyy], [-sxxx], [syxz], [-sxxx], [syyy], [syyz], [syzx], [syzy], [],
   [szyy], [-szyx], [], [szyx], [szyy], [], [], [], [szzz]]

/-- `surface['C_3v']`, tensor_definitions.py:138. -/
def surface_C_3v : List (List ℤ) :=
  [[], [sxyx], [syyz], [sxyx], [], [], [syzy], [], [],
   [sxyx], [], [], [], [-sxyx], [syyz], [], [syzy], [],
   [szyy], [], [], [], [szyy], [], [], [], [szzz]]

/-- `surface['C_6']`, tensor_definitions.py:139. -/
def surface_C_6 : List (List ℤ) :=
  [[], [], [syyz], [], [], [-syxz], [syzy], [-syzx], [],
   [], [], [syxz], [], [], [syyz], [syzx], [syzy], [],
   [szyy], [-szyx], [], [szyx], [szyy], [], [], [], [szzz]]

/-- `surface['C_3h']`, tensor_definitions.py:140. -/
def surface_C_3h : List (List ℤ) :=
  [[-syyx], [sxxy], [], [sxxy], [syyx], [], [], [], [],
   [sxxy], [syyx], [], [syyx], [-sxxy], [], [], [], [],
   [], [], [], [], [], [], [], [], []]

/-- `surface['D_6']`, tensor_definitions.py:141. -/
def surface_D_6 : List (List ℤ) :=
  [[], [], [], [], [], [-syxz], [], [-syzx], [],
   [], [], [syxz], [], [], [], [syzx], [], [],
   [], [-szyx], [], [szyx], [], [], [], [], []]

/-- `surface['C_6v']`, tensor_definitions.py:142. -/
def surface_C_6v : List (List ℤ) :=
  [[], [], [syyz], [], [], [], [syzy], [], [],
   [], [], [], [], [], [syyz], [], [syzy], [],
   [szyy], [], [], [], [szyy], [], [], [], [szzz]]

/-- `surface['D_3h']`, tensor_definitions.py:143. -/
def surface_D_3h : List (List ℤ) :=
  [[], [sxyx], [], [sxyx], [], [], [], [], [],
   [sxyx], [], [], [], [-sxyx], [], [], [], [],
   [], [], [], [], [], [], [], [], []]

/-- `surface['C_1']`, tensor_definitions.py:144. -/
def surface_C_1 : List (List ℤ) :=
  [[sxxx], [sxxy], [sxxz], [sxyx], [sxyy], [sxyz], [sxzx], [sxzy], [sxzz],
   [syxx], [syxy], [syxz], [syyx], [syyy], [syyz], [syzx], [syzy], [syzz],
   [szxx], [szxy], [szxz], [szyx], [szyy], [szyz], [szzx], [szzy], [szzz]]

/-- The entries of `surface`, in the order of the source. -/
def surfaceTable : Dict Key (List (List ℤ)) :=
  [(['S', '_', '2'], surface_S_2),
   (['C', '_', '2', 'h'], surface_C_2h),
   (['D', '_', '2', 'h'], surface_D_2h),
   (['C', '_', '4', 'h'], surface_C_4h),
   (['D', '_', '4', 'h'], surface_D_4h),
   (['T', '_', 'h'], surface_T_h),
   (['O', '_', 'h'], surface_O_h),
   (['S', '_', '6'], surface_S_6),
   (['D', '_', '3', 'd'], surface_D_3d),
   (['C', '_', '6', 'h'], surface_C_6h),
   (['D', '_', '6', 'h'], surface_D_6h),
   (['C', '_', '2'], surface_C_2),
   (['C', '_', '1', 'h'], surface_C_1h),
   (['D', '_', '2'], surface_D_2),
   (['C', '_', '2', 'v'], surface_C_2v),
   (['C', '_', '4'], surface_C_4),
   (['S', '_', '4'], surface_S_4),
   (['D', '_', '4'], surface_D_4),
   (['C', '_', '4', 'v'], surface_C_4v),
   (['D', '_', '2', 'd'], surface_D_2d),
   (['O'], surface_O),
   (['T', '_', 'd'], surface_T_d),
   (['T'], surface_T),
   (['D', '_', '3'], surface_D_3),
   (['C', '_', '3'], surface_C_3),
   (['C', '_', '3', 'v'], surface_C_3v),
   (['C', '_', '6'], surface_C_6),
   (['C', '_', '3', 'h'], surface_C_3h),
   (['D', '_', '6'], surface_D_6),
   (['C', '_', '6', 'v'], surface_C_6v),
   (['D', '_', '3', 'h'], surface_D_3h),
   (['C', '_', '1'], surface_C_1)]

/-- `quadrupole['Isotropic']`, tensor_definitions.py:152. -/
def quadrupole_Isotropic : List (List ℤ) :=
  [[yxxy, yxyx, yyxx], [], [], [], [yyxx], [], [], [], [yyxx],
   [], [yxyx], [], [yxxy], [], [], [], [], [],
   [], [], [yxyx], [], [], [], [yxxy], [], [],
   [], [yxxy], [], [yxyx], [], [], [], [], [],
   [yyxx], [], [], [], [yxxy, yxyx, yyxx], [], [], [], [yyxx],
   [], [], [], [], [], [yxyx], [], [yxxy], [],
   [], [], [yxxy], [], [], [], [yxyx], [], [],
   [], [], [], [], [], [yxxy], [], [yxyx], [],
   [yyxx], [], [], [], [yyxx], [], [], [], [yxxy, yxyx, yyxx]]

/-- `quadrupole['T']`, tensor_definitions.py:153. -/
def quadrupole_T : List (List ℤ) :=
  [[zzzz], [], [], [], [xxyy], [], [], [], [yyxx],
   [], [xyxy], [], [xyyx], [], [], [], [], [],
   [], [], [yxyx], [], [], [], [yxxy], [], [],
   [], [yxxy], [], [yxyx], [], [], [], [], [],
   [yyxx], [], [], [], [zzzz], [], [], [], [xxyy],
   [], [], [], [], [], [xyxy], [], [xyyx], [],
   [], [], [xyyx], [], [], [], [xyxy], [], [],
   [], [], [], [], [], [yxxy], [], [yxyx], [],
   [xxyy], [], [], [], [yyxx], [], [], [], [zzzz]]

/-- `quadrupole['T_h']`, tensor_definitions.py:154. -/
def quadrupole_T_h : List (List ℤ) :=
  [[zzzz], [], [], [], [xxyy], [], [], [], [yyxx],
   [], [xyxy], [], [xyyx], [], [], [], [], [],
   [], [], [yxyx], [], [], [], [yxxy], [], [],
   [], [yxxy], [], [yxyx], [], [], [], [], [],
   [yyxx], [], [], [], [zzzz], [], [], [], [xxyy],
   [], [], [], [], [], [xyxy], [], [xyyx], [],
   [], [], [xyyx], [], [], [], [xyxy], [], [],
   [], [], [], [], [], [yxxy], [], [yxyx], [],
   [xxyy], [], [], [], [yyxx], [], [], [], [zzzz]]

/-- `quadrupole['O_h']`, tensor_definitions.py:155. -/
def quadrupole_O_h : List (List ℤ) :=
  [[zzzz], [], [], [], [yyxx], [], [], [], [yyxx],
   [], [yxyx], [], [yxxy], [], [], [], [], [],
   [], [], [yxyx], [], [], [], [yxxy], [], [],
   [], [yxxy], [], [yxyx], [], [], [], [], [],
   [yyxx], [], [], [], [zzzz], [], [], [], [yyxx],
   [], [], [], [], [], [yxyx], [], [yxxy], [],
   [], [], [yxxy], [], [], [], [yxyx], [], [],
   [], [], [], [], [], [yxxy], [], [yxyx], [],
   [yyxx], [], [], [], [yyxx], [], [], [], [zzzz]]

/-- `quadrupole['O']`, tensor_definitions.py:156. -/
def quadrupole_O : List (List ℤ) :=
  [[zzzz], [], [], [], [yyxx], [], [], [], [yyxx],
   [], [yxyx], [], [yxxy], [], [], [], [], [],
   [], [], [yxyx], [], [], [], [yxxy], [], [],
   [], [yxxy], [], [yxyx], [], [], [], [], [],
   [yyxx], [], [], [], [zzzz], [], [], [], [yyxx],
   [], [], [], [], [], [yxyx], [], [yxxy], [],
   [], [], [yxxy], [], [], [], [yxyx], [], [],
   [], [], [], [], [], [yxxy], [], [yxyx], [],
   [yyxx], [], [], [], [yyxx], [], [], [], [zzzz]]

/-- `quadrupole['T_d']`, tensor_definitions.py:157. -/
def quadrupole_T_d : List (List ℤ) :=
  [[zzzz], [], [], [], [yyxx], [], [], [], [yyxx],
   [], [yxyx], [], [yxxy], [], [], [], [], [],
   [], [], [yxyx], [], [], [], [yxxy], [], [],
   [], [yxxy], [], [yxyx], [], [], [], [], [],
   [yyxx], [], [], [], [zzzz], [], [], [], [yyxx],
   [], [], [], [], [], [yxyx], [], [yxxy], [],
   [], [], [yxxy], [], [], [], [yxyx], [], [],
   [], [], [], [], [], [yxxy], [], [yxyx], [],
   [yyxx], [], [], [], [yyxx], [], [], [], [zzzz]]

/-- `quadrupole['C_6']`, tensor_definitions.py:158. -/
def quadrupole_C_6 : List (List ℤ) :=
  [[yxxy, yxyx, yyxx], [-xxyx, -xyxx, -yxxx], [], [xxyx], [yyxx], [], [], [], [xxzz],
   [xyxx], [yxyx], [], [yxxy], [-yxxx], [], [], [], [-yxzz],
   [], [], [xzxz], [], [], [-yzxz], [xzzx], [-yzzx], [],
   [yxxx], [yxxy], [], [yxyx], [-xyxx], [], [], [], [yxzz],
   [yyxx], [-xxyx], [], [xxyx, xyxx, yxxx], [yxxy, yxyx, yyxx], [], [], [], [xxzz],
   [], [], [yzxz], [], [], [xzxz], [yzzx], [xzzx], [],
   [], [], [zxxz], [], [], [-zyxz], [zxzx], [-zyzx], [],
   [], [], [zyxz], [], [], [zxxz], [zyzx], [zxzx], [],
   [zzxx], [-zzyx], [], [zzyx], [zzxx], [], [], [], [zzzz]]

/-- `quadrupole['C_3h']`, tensor_definitions.py:159. -/
def quadrupole_C_3h : List (List ℤ) :=
  [[yxxy, yxyx, yyxx], [-xxyx, -xyxx, -yxxx], [], [xxyx], [yyxx], [], [], [], [xxzz],
   [xyxx], [yxyx], [], [yxxy], [-yxxx], [], [], [], [-yxzz],
   [], [], [xzxz], [], [], [-yzxz], [xzzx], [-yzzx], [],
   [yxxx], [yxxy], [], [yxyx], [-xyxx], [], [], [], [yxzz],
   [yyxx], [-xxyx], [], [xxyx, xyxx, yxxx], [yxxy, yxyx, yyxx], [], [], [], [xxzz],
   [], [], [yzxz], [], [], [xzxz], [yzzx], [xzzx], [],
   [], [], [zxxz], [], [], [-zyxz], [zxzx], [-zyzx], [],
   [], [], [zyxz], [], [], [zxxz], [zyzx], [zxzx], [],
   [zzxx], [-zzyx], [], [zzyx], [zzxx], [], [], [], [zzzz]]

/-- `quadrupole['C_6h']`, tensor_definitions.py:160. -/
def quadrupole_C_6h : List (List ℤ) :=
  [[yxxy, yxyx, yyxx], [-xxyx, -xyxx, -yxxx], [], [xxyx], [yyxx], [], [], [], [xxzz],
   [xyxx], [yxyx], [], [yxxy], [-yxxx], [], [], [], [-yxzz],
   [], [], [xzxz], [], [], [-yzxz], [xzzx], [-yzzx], [],
   [yxxx], [yxxy], [], [yxyx], [-xyxx], [], [], [], [yxzz],
   [yyxx], [-xxyx], [], [xxyx, xyxx, yxxx], [yxxy, yxyx, yyxx], [], [], [], [xxzz],
   [], [], [yzxz], [], [], [xzxz], [yzzx], [xzzx], [],
   [], [], [zxxz], [], [], [-zyxz], [zxzx], [-zyzx], [],
   [], [], [zyxz], [], [], [zxxz], [zyzx], [zxzx], [],
   [zzxx], [-zzyx], [], [zzyx], [zzxx], [], [], [], [zzzz]]

/-- `quadrupole['C_6v']`, tensor_definitions.py:161. -/
def quadrupole_C_6v : List (List ℤ) :=
  [[yxxy, yxyx, yyxx], [], [], [], [yyxx], [], [], [], [xxzz],
   [], [yxyx], [], [yxxy], [], [], [], [], [],
   [], [], [xzxz], [], [], [], [xzzx], [], [],
   [], [yxxy], [], [yxyx], [], [], [], [], [],
   [yyxx], [], [], [], [yxxy, yxyx, yyxx], [], [], [], [xxzz],
   [], [], [], [], [], [xzxz], [], [xzzx], [],
   [], [], [zxxz], [], [], [], [zxzx], [], [],
   [], [], [], [], [], [zxxz], [], [zxzx], [],
   [zzxx], [], [], [], [zzxx], [], [], [], [zzzz]]

/-- `quadrupole['D_6']`, tensor_definitions.py:162. -/
def quadrupole_D_6 : List (List ℤ) :=
  [[yxxy, yxyx, yyxx], [], [], [], [yyxx], [], [], [], [xxzz],
   [], [yxyx], [], [yxxy], [], [], [], [], [],
   [], [], [xzxz], [], [], [], [xzzx], [], [],
   [], [yxxy], [], [yxyx], [], [], [], [], [],
   [yyxx], [], [], [], [yxxy, yxyx, yyxx], [], [], [], [xxzz],
   [], [], [], [], [], [xzxz], [], [xzzx], [],
   [], [], [zxxz], [], [], [], [zxzx], [], [],
   [], [], [], [], [], [zxxz], [], [zxzx], [],
   [zzxx], [], [], [], [zzxx], [], [], [], [zzzz]]

/-- `quadrupole['D_6h']`, tensor_definitions.py:163. -/
def quadrupole_D_6h : List (List ℤ) :=
  [[yxxy, yxyx, yyxx], [], [], [], [yyxx], [], [], [], [xxzz],
   [], [yxyx], [], [yxxy], [], [], [], [], [],
   [], [], [xzxz], [], [], [], [xzzx], [], [],
   [], [yxxy], [], [yxyx], [], [], [], [], [],
   [yyxx], [], [], [], [yxxy, yxyx, yyxx], [], [], [], [xxzz],
   [], [], [], [], [], [xzxz], [], [xzzx], [],
   [], [], [zxxz], [], [], [], [zxzx], [], [],
   [], [], [], [], [], [zxxz], [], [zxzx], [],
   [zzxx], [], [], [], [zzxx], [], [], [], [zzzz]]

/-- `quadrupole['D_3h']`, tensor_definitions.py:164. -/
def quadrupole_D_3h : List (List ℤ) :=
  [[yxxy, yxyx, yyxx], [], [], [], [yyxx], [], [], [], [xxzz],
   [], [yxyx], [], [yxxy], [], [], [], [], [],
   [], [], [xzxz], [], [], [], [xzzx], [], [],
   [], [yxxy], [], [yxyx], [], [], [], [], [],
   [yyxx], [], [], [], [yxxy, yxyx, yyxx], [], [], [], [xxzz],
   [], [], [], [], [], [xzxz], [], [xzzx], [],
   [], [], [zxxz], [], [], [], [zxzx], [], [],
   [], [], [], [], [], [zxxz], [], [zxzx], [],
   [zzxx], [], [], [], [zzxx], [], [], [], [zzzz]]

/-- `quadrupole['C_3']`, tensor_definitions.py:165. -/
def quadrupole_C_3 : List (List ℤ) :=
  [[yxxy, yxyx, yyxx], [-xxyx, -xyxx, -yxxx], [-yyxz], [xxyx], [yyxx], [xxyz], [-yyzx], [xxzy], [xxzz],
   [xyxx], [yxyx], [xxyz], [yxxy], [-yxxx], [yyxz], [xxzy], [yyzx], [-yxzz],
   [-xzyy], [xzxy], [xzxz], [xzxy], [xzyy], [-yzxz], [xzzx], [-yzzx], [],
   [yxxx], [yxxy], [xxyz], [yxyx], [-xyxx], [yyxz], [xxzy], [yyzx], [yxzz],
   [yyxx], [-xxyx], [yyxz], [xxyx, xyxx, yxxx], [yxxy, yxyx, yyxx], [-xxyz], [yyzx], [-xxzy], [xxzz],
   [xzxy], [xzyy], [yzxz], [xzyy], [-xzxy], [xzxz], [yzzx], [xzzx], [],
   [-zyyx], [zxxy], [zxxz], [zxxy], [zyyx], [-zyxz], [zxzx], [-zyzx], [],
   [zxxy], [zyyx], [zyxz], [zyyx], [-zxxy], [zxxz], [zyzx], [zxzx], [],
   [zzxx], [-zzyx], [], [zzyx], [zzxx], [], [], [], [zzzz]]

/-- `quadrupole['S_6']`, tensor_definitions.py:166. -/
def quadrupole_S_6 : List (List ℤ) :=
  [[yxxy, yxyx, yyxx], [-xxyx, -xyxx, -yxxx], [-yyxz], [xxyx], [yyxx], [xxyz], [-yyzx], [xxzy], [xxzz],
   [xyxx], [yxyx], [xxyz], [yxxy], [-yxxx], [yyxz], [xxzy], [yyzx], [-yxzz],
   [-xzyy], [xzxy], [xzxz], [xzxy], [xzyy], [-yzxz], [xzzx], [-yzzx], [],
   [yxxx], [yxxy], [xxyz], [yxyx], [-xyxx], [yyxz], [xxzy], [yyzx], [yxzz],
   [yyxx], [-xxyx], [yyxz], [xxyx, xyxx, yxxx], [yxxy, yxyx, yyxx], [-xxyz], [yyzx], [-xxzy], [xxzz],
   [xzxy], [xzyy], [yzxz], [xzyy], [-xzxy], [xzxz], [yzzx], [xzzx], [],
   [-zyyx], [zxxy], [zxxz], [zxxy], [zyyx], [-zyxz], [zxzx], [-zyzx], [],
   [zxxy], [zyyx], [zyxz], [zyyx], [-zxxy], [zxxz], [zyzx], [zxzx], [],
   [zzxx], [-zzyx], [], [zzyx], [zzxx], [], [], [], [zzzz]]

/-- `quadrupole['C_3v']`, tensor_definitions.py:167. -/
def quadrupole_C_3v : List (List ℤ) :=
  [[yxxy, yxyx, yyxx], [], [-yyxz], [], [yyxx], [], [-yyzx], [], [xxzz],
   [], [yxyx], [], [yxxy], [], [yyxz], [], [yyzx], [],
   [-yzyx], [], [xzxz], [], [yzyx], [], [xzzx], [], [],
   [], [yxxy], [], [yxyx], [], [yyxz], [], [yyzx], [],
   [yyxx], [], [yyxz], [], [yxxy, yxyx, yyxx], [], [yyzx], [], [xxzz],
   [], [yzyx], [], [yzyx], [], [xzxz], [], [xzzx], [],
   [-zyyx], [], [zxxz], [], [zyyx], [], [zxzx], [], [],
   [], [zyyx], [], [zyyx], [], [zxxz], [], [zxzx], [],
   [zzxx], [], [], [], [zzxx], [], [], [], [zzzz]]

/-- `quadrupole['D_3d']`, tensor_definitions.py:168. -/
def quadrupole_D_3d : List (List ℤ) :=
  [[yxxy, yxyx, yyxx], [], [-yyxz], [], [yyxx], [], [-yyzx], [], [xxzz],
   [], [yxyx], [], [yxxy], [], [yyxz], [], [yyzx], [],
   [-yzyx], [], [xzxz], [], [yzyx], [], [xzzx], [], [],
   [], [yxxy], [], [yxyx], [], [yyxz], [], [yyzx], [],
   [yyxx], [], [yyxz], [], [yxxy, yxyx, yyxx], [], [yyzx], [], [xxzz],
   [], [yzyx], [], [yzyx], [], [xzxz], [], [xzzx], [],
   [-zyyx], [], [zxxz], [], [zyyx], [], [zxzx], [], [],
   [], [zyyx], [], [zyyx], [], [zxxz], [], [zxzx], [],
   [zzxx], [], [], [], [zzxx], [], [], [], [zzzz]]

/-- `quadrupole['D_3']`, tensor_definitions.py:169. -/
def quadrupole_D_3 : List (List ℤ) :=
  [[yxxy, yxyx, yyxx], [], [-yyxz], [], [yyxx], [], [-yyzx], [], [xxzz],
   [], [yxyx], [], [yxxy], [], [yyxz], [], [yyzx], [],
   [-yzyx], [], [xzxz], [], [yzyx], [], [xzzx], [], [],
   [], [yxxy], [], [yxyx], [], [yyxz], [], [yyzx], [],
   [yyxx], [], [yyxz], [], [yxxy, yxyx, yyxx], [], [yyzx], [], [xxzz],
   [], [yzyx], [], [yzyx], [], [xzxz], [], [xzzx], [],
   [-zyyx], [], [zxxz], [], [zyyx], [], [zxzx], [], [],
   [], [zyyx], [], [zyyx], [], [zxxz], [], [zxzx], [],
   [zzxx], [], [], [], [zzxx], [], [], [], [zzzz]]

/-- `quadrupole['C_4']`, tensor_definitions.py:170. -/
def quadrupole_C_4 : List (List ℤ) :=
  [[yyyy], [-yyyx], [], [-yyxy], [yyxx], [], [], [], [yyzz],
   [-yxyy], [yxyx], [], [yxxy], [xyyy], [], [], [], [-yxzz],
   [], [], [yzyz], [], [], [-yzxz], [yzzy], [-yzzx], [],
   [-xyyy], [yxxy], [], [yxyx], [yxyy], [], [], [], [yxzz],
   [yyxx], [yyxy], [], [yyyx], [yyyy], [], [], [], [yyzz],
   [], [], [yzxz], [], [], [yzyz], [yzzx], [yzzy], [],
   [], [], [zyyz], [], [], [-zyxz], [zyzy], [-zyzx], [],
   [], [], [zyxz], [], [], [zyyz], [zyzx], [zyzy], [],
   [zzyy], [-zzyx], [], [zzyx], [zzyy], [], [], [], [zzzz]]

/-- `quadrupole['C_4h']`, tensor_definitions.py:171. -/
def quadrupole_C_4h : List (List ℤ) :=
  [[yyyy], [-yyyx], [], [-yyxy], [yyxx], [], [], [], [yyzz],
   [-yxyy], [yxyx], [], [yxxy], [xyyy], [], [], [], [-yxzz],
   [], [], [yzyz], [], [], [-yzxz], [yzzy], [-yzzx], [],
   [-xyyy], [yxxy], [], [yxyx], [yxyy], [], [], [], [yxzz],
   [yyxx], [yyxy], [], [yyyx], [yyyy], [], [], [], [yyzz],
   [], [], [yzxz], [], [], [yzyz], [yzzx], [yzzy], [],
   [], [], [zyyz], [], [], [-zyxz], [zyzy], [-zyzx], [],
   [], [], [zyxz], [], [], [zyyz], [zyzx], [zyzy], [],
   [zzyy], [-zzyx], [], [zzyx], [zzyy], [], [], [], [zzzz]]

/-- `quadrupole['S_4']`, tensor_definitions.py:172. -/
def quadrupole_S_4 : List (List ℤ) :=
  [[yyyy], [-yyyx], [], [-yyxy], [yyxx], [], [], [], [yyzz],
   [-yxyy], [yxyx], [], [yxxy], [xyyy], [], [], [], [-yxzz],
   [], [], [yzyz], [], [], [-yzxz], [yzzy], [-yzzx], [],
   [-xyyy], [yxxy], [], [yxyx], [yxyy], [], [], [], [yxzz],
   [yyxx], [yyxy], [], [yyyx], [yyyy], [], [], [], [yyzz],
   [], [], [yzxz], [], [], [yzyz], [yzzx], [yzzy], [],
   [], [], [zyyz], [], [], [-zyxz], [zyzy], [-zyzx], [],
   [], [], [zyxz], [], [], [zyyz], [zyzx], [zyzy], [],
   [zzyy], [-zzyx], [], [zzyx], [zzyy], [], [], [], [zzzz]]

/-- `quadrupole['C_4v']`, tensor_definitions.py:173. -/
def quadrupole_C_4v : List (List ℤ) :=
  [[yyyy], [], [], [], [yyxx], [], [], [], [xxzz],
   [], [yxyx], [], [yxxy], [], [], [], [], [],
   [], [], [xzxz], [], [], [], [xzzx], [], [],
   [], [yxxy], [], [yxyx], [], [], [], [], [],
   [yyxx], [], [], [], [yyyy], [], [], [], [xxzz],
   [], [], [], [], [], [xzxz], [], [xzzx], [],
   [], [], [zxxz], [], [], [], [zxzx], [], [],
   [], [], [], [], [], [zxxz], [], [zxzx], [],
   [zzxx], [], [], [], [zzxx], [], [], [], [zzzz]]

/-- `quadrupole['D_4']`, tensor_definitions.py:174. -/
def quadrupole_D_4 : List (List ℤ) :=
  [[yyyy], [], [], [], [yyxx], [], [], [], [xxzz],
   [], [yxyx], [], [yxxy], [], [], [], [], [],
   [], [], [xzxz], [], [], [], [xzzx], [], [],
   [], [yxxy], [], [yxyx], [], [], [], [], [],
   [yyxx], [], [], [], [yyyy], [], [], [], [xxzz],
   [], [], [], [], [], [xzxz], [], [xzzx], [],
   [], [], [zxxz], [], [], [], [zxzx], [], [],
   [], [], [], [], [], [zxxz], [], [zxzx], [],
   [zzxx], [], [], [], [zzxx], [], [], [], [zzzz]]

/-- `quadrupole['D_4h']`, tensor_definitions.py:175. -/
def quadrupole_D_4h : List (List ℤ) :=
  [[yyyy], [], [], [], [yyxx], [], [], [], [xxzz],
   [], [yxyx], [], [yxxy], [], [], [], [], [],
   [], [], [xzxz], [], [], [], [xzzx], [], [],
   [], [yxxy], [], [yxyx], [], [], [], [], [],
   [yyxx], [], [], [], [yyyy], [], [], [], [xxzz],
   [], [], [], [], [], [xzxz], [], [xzzx], [],
   [], [], [zxxz], [], [], [], [zxzx], [], [],
   [], [], [], [], [], [zxxz], [], [zxzx], [],
   [zzxx], [], [], [], [zzxx], [], [], [], [zzzz]]

/-- `quadrupole['D_2d']`, tensor_definitions.py:176. -/
def quadrupole_D_2d : List (List ℤ) :=
  [[yyyy], [], [], [], [yyxx], [], [], [], [xxzz],
   [], [yxyx], [], [yxxy], [], [], [], [], [],
   [], [], [xzxz], [], [], [], [xzzx], [], [],
   [], [yxxy], [], [yxyx], [], [], [], [], [],
   [yyxx], [], [], [], [yyyy], [], [], [], [xxzz],
   [], [], [], [], [], [xzxz], [], [xzzx], [],
   [], [], [zxxz], [], [], [], [zxzx], [], [],
   [], [], [], [], [], [zxxz], [], [zxzx], [],
   [zzxx], [], [], [], [zzxx], [], [], [], [zzzz]]

/-- `quadrupole['C_2']`, tensor_definitions.py:177. -/
def quadrupole_C_2 : List (List ℤ) :=
  [[xxxx], [], [xxxz], [], [xxyy], [], [xxzx], [], [xxzz],
   [], [xyxy], [], [xyyx], [], [xyyz], [], [xyzy], [],
   [xzxx], [], [xzxz], [], [xzyy], [], [xzzx], [], [xzzz],
   [], [yxxy], [], [yxyx], [], [yxyz], [], [yxzy], [],
   [yyxx], [], [yyxz], [], [yyyy], [], [yyzx], [], [yyzz],
   [], [yzxy], [], [yzyx], [], [yzyz], [], [yzzy], [],
   [zxxx], [], [zxxz], [], [zxyy], [], [zxzx], [], [zxzz],
   [], [zyxy], [], [zyyx], [], [zyyz], [], [zyzy], [],
   [zzxx], [], [zzxz], [], [zzyy], [], [zzzx], [], [zzzz]]

/-- `quadrupole['C_1h']`, tensor_definitions.py:178. -/
def quadrupole_C_1h : List (List ℤ) :=
  [[xxxx], [], [xxxz], [], [xxyy], [], [xxzx], [], [xxzz],
   [], [xyxy], [], [xyyx], [], [xyyz], [], [xyzy], [],
   [xzxx], [], [xzxz], [], [xzyy], [], [xzzx], [], [xzzz],
   [], [yxxy], [], [yxyx], [], [yxyz], [], [yxzy], [],
   [yyxx], [], [yyxz], [], [yyyy], [], [yyzx], [], [yyzz],
   [], [yzxy], [], [yzyx], [], [yzyz], [], [yzzy], [],
   [zxxx], [], [zxxz], [], [zxyy], [], [zxzx], [], [zxzz],
   [], [zyxy], [], [zyyx], [], [zyyz], [], [zyzy], [],
   [zzxx], [], [zzxz], [], [zzyy], [], [zzzx], [], [zzzz]]

/-- `quadrupole['C_2h']`, tensor_definitions.py:179. -/
def quadrupole_C_2h : List (List ℤ) :=
  [[xxxx], [], [xxxz], [], [xxyy], [], [xxzx], [], [xxzz],
   [], [xyxy], [], [xyyx], [], [xyyz], [], [xyzy], [],
   [xzxx], [], [xzxz], [], [xzyy], [], [xzzx], [], [xzzz],
   [], [yxxy], [], [yxyx], [], [yxyz], [], [yxzy], [],
   [yyxx], [], [yyxz], [], [yyyy], [], [yyzx], [], [yyzz],
   [], [yzxy], [], [yzyx], [], [yzyz], [], [yzzy], [],
   [zxxx], [], [zxxz], [], [zxyy], [], [zxzx], [], [zxzz],
   [], [zyxy], [], [zyyx], [], [zyyz], [], [zyzy], [],
   [zzxx], [], [zzxz], [], [zzyy], [], [zzzx], [], [zzzz]]

/-- `quadrupole['C_2v']`, tensor_definitions.py:180. -/
def quadrupole_C_2v : List (List ℤ) :=
  [[xxxx], [], [], [], [xxyy], [], [], [], [xxzz],
   [], [xyxy], [], [xyyx], [], [], [], [], [],
   [], [], [xzxz], [], [], [], [xzzx], [], [],
   [], [yxxy], [], [yxyx], [], [], [], [], [],
   [yyxx], [], [], [], [yyyy], [], [], [], [yyzz],
   [], [], [], [], [], [yzyz], [], [yzzy], [],
   [], [], [zxxz], [], [], [], [zxzx], [], [],
   [], [], [], [], [], [zyyz], [], [zyzy], [],
   [zzxx], [], [], [], [zzyy], [], [], [], [zzzz]]

/-- `quadrupole['D_2']`, tensor_definitions.py:181. -/
def quadrupole_D_2 : List (List ℤ) :=
  [[xxxx], [], [], [], [xxyy], [], [], [], [xxzz],
   [], [xyxy], [], [xyyx], [], [], [], [], [],
   [], [], [xzxz], [], [], [], [xzzx], [], [],
   [], [yxxy], [], [yxyx], [], [], [], [], [],
   [yyxx], [], [], [], [yyyy], [], [], [], [yyzz],
   [], [], [], [], [], [yzyz], [], [yzzy], [],
   [], [], [zxxz], [], [], [], [zxzx], [], [],
   [], [], [], [], [], [zyyz], [], [zyzy], [],
   [zzxx], [], [], [], [zzyy], [], [], [], [zzzz]]

/-- `quadrupole['D_2h']`, tensor_definitions.py:182. -/
def quadrupole_D_2h : List (List ℤ) :=
  [[xxxx], [], [], [], [xxyy], [], [], [], [xxzz],
   [], [xyxy], [], [xyyx], [], [], [], [], [],
   [], [], [xzxz], [], [], [], [xzzx], [], [],
   [], [yxxy], [], [yxyx], [], [], [], [], [],
   [yyxx], [], [], [], [yyyy], [], [], [], [yyzz],
   [], [], [], [], [], [yzyz], [], [yzzy], [],
   [], [], [zxxz], [], [], [], [zxzx], [], [],
   [], [], [], [], [], [zyyz], [], [zyzy], [],
   [zzxx], [], [], [], [zzyy], [], [], [], [zzzz]]

/-- `quadrupole['C_1']`, tensor_definitions.py:183. -/
def quadrupole_C_1 : List (List ℤ) :=
  [[xxxx], [xxxy], [xxxz], [xxyx], [xxyy], [xxyz], [xxzx], [xxzy], [xxzz],
   [xyxx], [xyxy], [xyxz], [xyyx], [xyyy], [xyyz], [xyzx], [xyzy], [xyzz],
   [xzxx], [xzxy], [xzxz], [xzyx], [xzyy], [xzyz], [xzzx], [xzzy], [xzzz],
   [yxxx], [yxxy], [yxxz], [yxyx], [yxyy], [yxyz], [yxzx], [yxzy], [yxzz],
   [yyxx], [yyxy], [yyxz], [yyyx], [yyyy], [yyyz], [yyzx], [yyzy], [yyzz],
   [yzxx], [yzxy], [yzxz], [yzyx], [yzyy], [yzyz], [yzzx], [yzzy], [yzzz],
   [zxxx], [zxxy], [zxxz], [zxyx], [zxyy], [zxyz], [zxzx], [zxzy], [zxzz],
   [zyxx], [zyxy], [zyxz], [zyyx], [zyyy], [zyyz], [zyzx], [zyzy], [zyzz],
   [zzxx], [zzxy], [zzxz], [zzyx], [zzyy], [zzyz], [zzzx], [zzzy], [zzzz]]

/-- The entries of `quadrupole`, in the order of the source. -/
def quadrupoleTable : Dict Key (List (List ℤ)) :=
  [(['I', 's', 'o', 't', 'r', 'o', 'p', 'i', 'c'], quadrupole_Isotropic),
   (['T'], quadrupole_T),
   (['T', '_', 'h'], quadrupole_T_h),
   (['O', '_', 'h'], quadrupole_O_h),
   (['O'], quadrupole_O),
   (['T', '_', 'd'], quadrupole_T_d),
   (['C', '_', '6'], quadrupole_C_6),
   (['C', '_', '3', 'h'], quadrupole_C_3h),
   (['C', '_', '6', 'h'], quadrupole_C_6h),
   (['C', '_', '6', 'v'], quadrupole_C_6v),
   (['D', '_', '6'], quadrupole_D_6),
   (['D', '_', '6', 'h'], quadrupole_D_6h),
   (['D', '_', '3', 'h'], quadrupole_D_3h),
   (['C', '_', '3'], quadrupole_C_3),
   (['S', '_', '6'], quadrupole_S_6),
   (['C', '_', '3', 'v'], quadrupole_C_3v),
   (['D', '_', '3', 'd'], quadrupole_D_3d),
   (['D', '_', '3'], quadrupole_D_3),
   (['C', '_', '4'], quadrupole_C_4),
   (['C', '_', '4', 'h'], quadrupole_C_4h),
   (['S', '_', '4'], quadrupole_S_4),
   (['C', '_', '4', 'v'], quadrupole_C_4v),
   (['D', '_', '4'], quadrupole_D_4),
   (['D', '_', '4', 'h'], quadrupole_D_4h),
   (['D', '_', '2', 'd'], quadrupole_D_2d),
   (['C', '_', '2'], quadrupole_C_2),
   (['C', '_', '1', 'h'], quadrupole_C_1h),
   (['C', '_', '2', 'h'], quadrupole_C_2h),
   (['C', '_', '2', 'v'], quadrupole_C_2v),
   (['D', '_', '2'], quadrupole_D_2),
   (['D', '_', '2', 'h'], quadrupole_D_2h),
   (['C', '_', '1'], quadrupole_C_1)]

end TensorDef

/-- `dipole`, tensor_definitions.py:72-110: `sympify` changes nothing but the zeros, which become expressions. -/
def dipole (S : Sympy) : Dict Key (Nd Expr) := Dict.mapVals (tensorArray S [] 3) TensorDef.dipoleTable
/-- `surface`, tensor_definitions.py:112-149. -/
def surface (S : Sympy) : Dict Key (Nd Expr) := Dict.mapVals (tensorArray S ['s'] 3) TensorDef.surfaceTable
/-- `quadrupole`, tensor_definitions.py:151-214. -/
def quadrupole (S : Sympy) : Dict Key (Nd Expr) := Dict.mapVals (tensorArray S [] 4) TensorDef.quadrupoleTable

end Shgpy
