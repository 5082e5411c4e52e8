import Verif.Conform.Basic

/-!
# Conformance: elem_func

Generated from `/repo/test/p1788/flavor/infsup/setbased/test_mpfr_bin_ieee754_flavor_elem_func.cpp`: the assertions of the project's own test suite, evaluated in the
model by the kernel.  Each entry is (line in that file, value of the assertion).  These are tests of the model, not proofs of
properties.
-/

set_option maxRecDepth 100000

namespace P1788.Conform

example : ([
    (1751, eqB (Fmt.fmaI binary64 (⟨(f 1 0), (f 5 0)⟩ : Itv) (⟨.ninf, (f (-1) (0))⟩ : Itv) (⟨(f (-2) (0)), (f 2 0)⟩ : Itv)) (⟨.ninf, (f 1 0)⟩)),
    (1752, eqB (Fmt.fmaI binary64 (⟨(f 1 0), (f 5 0)⟩ : Itv) (⟨.ninf, (f 3 0)⟩ : Itv) (⟨(f (-2) (0)), (f 2 0)⟩ : Itv)) (⟨.ninf, (f 17 0)⟩)),
    (1753, eqB (Fmt.fmaI binary64 (⟨(f 1 0), (f 5 0)⟩ : Itv) (⟨(f (-5) (0)), .pinf⟩ : Itv) (⟨(f (-2) (0)), (f 2 0)⟩ : Itv)) (⟨(f (-27) (0)), .pinf⟩)),
    (1754, eqB (Fmt.fmaI binary64 (⟨(f 1 0), (f 5 0)⟩ : Itv) (⟨(f 1 0), .pinf⟩ : Itv) (⟨(f (-2) (0)), (f 2 0)⟩ : Itv)) (⟨(f (-1) (0)), .pinf⟩)),
    (1755, eqB (Fmt.fmaI binary64 (⟨(f 1 0), (f 5 0)⟩ : Itv) (Itv.entire : Itv) (⟨(f (-2) (0)), (f 2 0)⟩ : Itv)) (Itv.entire)),
    (1757, eqB (Fmt.fmaI binary64 (⟨(f (-1) (0)), (f 5 0)⟩ : Itv) (⟨(f 0 0), (f 0 0)⟩ : Itv) (⟨(f (-2) (0)), (f 2 0)⟩ : Itv)) (⟨(f (-2) (0)), (f 2 0)⟩)),
    (1758, eqB (Fmt.fmaI binary64 (⟨(f (-1) (0)), (f 5 0)⟩ : Itv) (⟨.nzero, .nzero⟩ : Itv) (⟨(f (-2) (0)), (f 2 0)⟩ : Itv)) (⟨(f (-2) (0)), (f 2 0)⟩)),
    (1759, eqB (Fmt.fmaI binary64 (⟨(f (-1) (0)), (f 5 0)⟩ : Itv) (⟨(f (-5) (0)), (f (-1) (0))⟩ : Itv) (⟨(f (-2) (0)), (f 2 0)⟩ : Itv)) (⟨(f (-27) (0)), (f 7 0)⟩)),
    (1761, eqB (Fmt.fmaI binary64 (⟨(f (-1) (0)), (f 5 0)⟩ : Itv) (⟨(f (-5) (0)), (f 3 0)⟩ : Itv) (⟨(f (-2) (0)), (f 2 0)⟩ : Itv)) (⟨(f (-27) (0)), (f 17 0)⟩)),
    (1762, eqB (Fmt.fmaI binary64 (⟨(f (-10) (0)), (f 2 0)⟩ : Itv) (⟨(f (-5) (0)), (f 3 0)⟩ : Itv) (⟨(f (-2) (0)), (f 2 0)⟩ : Itv)) (⟨(f (-32) (0)), (f 52 0)⟩)),
    (1763, eqB (Fmt.fmaI binary64 (⟨(f (-1) (0)), (f 5 0)⟩ : Itv) (⟨(f (-1) (0)), (f 10 0)⟩ : Itv) (⟨(f (-2) (0)), (f 2 0)⟩ : Itv)) (⟨(f (-12) (0)), (f 52 0)⟩)),
    (1764, eqB (Fmt.fmaI binary64 (⟨(f (-2) (0)), (f 2 0)⟩ : Itv) (⟨(f (-5) (0)), (f 3 0)⟩ : Itv) (⟨(f (-2) (0)), (f 2 0)⟩ : Itv)) (⟨(f (-12) (0)), (f 12 0)⟩)),
    (1766, eqB (Fmt.fmaI binary64 (⟨(f (-1) (0)), (f 5 0)⟩ : Itv) (⟨(f 1 0), (f 3 0)⟩ : Itv) (⟨(f (-2) (0)), (f 2 0)⟩ : Itv)) (⟨(f (-5) (0)), (f 17 0)⟩)),
    (1767, eqB (Fmt.fmaI binary64 (⟨(f (-1) (0)), (f 5 0)⟩ : Itv) (⟨.ninf, (f (-1) (0))⟩ : Itv) (⟨(f (-2) (0)), (f 2 0)⟩ : Itv)) (Itv.entire)),
    (1768, eqB (Fmt.fmaI binary64 (⟨(f (-1) (0)), (f 5 0)⟩ : Itv) (⟨.ninf, (f 3 0)⟩ : Itv) (⟨(f (-2) (0)), (f 2 0)⟩ : Itv)) (Itv.entire)),
    (1769, eqB (Fmt.fmaI binary64 (⟨(f (-1) (0)), (f 5 0)⟩ : Itv) (⟨(f (-5) (0)), .pinf⟩ : Itv) (⟨(f (-2) (0)), (f 2 0)⟩ : Itv)) (Itv.entire)),
    (1770, eqB (Fmt.fmaI binary64 (⟨(f (-1) (0)), (f 5 0)⟩ : Itv) (⟨(f 1 0), .pinf⟩ : Itv) (⟨(f (-2) (0)), (f 2 0)⟩ : Itv)) (Itv.entire)),
    (1771, eqB (Fmt.fmaI binary64 (⟨(f (-1) (0)), (f 5 0)⟩ : Itv) (Itv.entire : Itv) (⟨(f (-2) (0)), (f 2 0)⟩ : Itv)) (Itv.entire)),
    (1773, eqB (Fmt.fmaI binary64 (⟨(f (-10) (0)), (f (-5) (0))⟩ : Itv) (⟨(f 0 0), (f 0 0)⟩ : Itv) (⟨(f (-2) (0)), (f 2 0)⟩ : Itv)) (⟨(f (-2) (0)), (f 2 0)⟩)),
    (1774, eqB (Fmt.fmaI binary64 (⟨(f (-10) (0)), (f (-5) (0))⟩ : Itv) (⟨.nzero, .nzero⟩ : Itv) (⟨(f (-2) (0)), (f 2 0)⟩ : Itv)) (⟨(f (-2) (0)), (f 2 0)⟩)),
    (1775, eqB (Fmt.fmaI binary64 (⟨(f (-10) (0)), (f (-5) (0))⟩ : Itv) (⟨(f (-5) (0)), (f (-1) (0))⟩ : Itv) (⟨(f (-2) (0)), (f 2 0)⟩ : Itv)) (⟨(f 3 0), (f 52 0)⟩)),
    (1776, eqB (Fmt.fmaI binary64 (⟨(f (-10) (0)), (f (-5) (0))⟩ : Itv) (⟨(f (-5) (0)), (f 3 0)⟩ : Itv) (⟨(f (-2) (0)), (f 2 0)⟩ : Itv)) (⟨(f (-32) (0)), (f 52 0)⟩)),
    (1777, eqB (Fmt.fmaI binary64 (⟨(f (-10) (0)), (f (-5) (0))⟩ : Itv) (⟨(f 1 0), (f 3 0)⟩ : Itv) (⟨(f (-2) (0)), (f 2 0)⟩ : Itv)) (⟨(f (-32) (0)), (f (-3) (0))⟩)),
    (1778, eqB (Fmt.fmaI binary64 (⟨(f (-10) (0)), (f (-5) (0))⟩ : Itv) (⟨.ninf, (f (-1) (0))⟩ : Itv) (⟨(f (-2) (0)), (f 2 0)⟩ : Itv)) (⟨(f 3 0), .pinf⟩)),
    (1779, eqB (Fmt.fmaI binary64 (⟨(f (-10) (0)), (f (-5) (0))⟩ : Itv) (⟨.ninf, (f 3 0)⟩ : Itv) (⟨(f (-2) (0)), (f 2 0)⟩ : Itv)) (⟨(f (-32) (0)), .pinf⟩)),
    (1780, eqB (Fmt.fmaI binary64 (⟨(f (-10) (0)), (f (-5) (0))⟩ : Itv) (⟨(f (-5) (0)), .pinf⟩ : Itv) (⟨(f (-2) (0)), (f 2 0)⟩ : Itv)) (⟨.ninf, (f 52 0)⟩)),
    (1781, eqB (Fmt.fmaI binary64 (⟨(f (-10) (0)), (f (-5) (0))⟩ : Itv) (⟨(f 1 0), .pinf⟩ : Itv) (⟨(f (-2) (0)), (f 2 0)⟩ : Itv)) (⟨.ninf, (f (-3) (0))⟩)),
    (1782, eqB (Fmt.fmaI binary64 (⟨(f (-10) (0)), (f (-5) (0))⟩ : Itv) (Itv.entire : Itv) (⟨(f (-2) (0)), (f 2 0)⟩ : Itv)) (Itv.entire)),
    (1786, Itv.isEmpty (Fmt.fmaI binary64 (Itv.empty : Itv) (Itv.empty : Itv) (⟨(f (-2) (0)), .pinf⟩ : Itv) : Itv)),
    (1787, Itv.isEmpty (Fmt.fmaI binary64 (⟨(f (-1) (0)), (f 1 0)⟩ : Itv) (Itv.empty : Itv) (⟨(f (-2) (0)), .pinf⟩ : Itv) : Itv)),
    (1788, Itv.isEmpty (Fmt.fmaI binary64 (Itv.empty : Itv) (⟨(f (-1) (0)), (f 1 0)⟩ : Itv) (⟨(f (-2) (0)), .pinf⟩ : Itv) : Itv)),
    (1789, Itv.isEmpty (Fmt.fmaI binary64 (Itv.empty : Itv) (Itv.entire : Itv) (⟨(f (-2) (0)), .pinf⟩ : Itv) : Itv)),
    (1790, Itv.isEmpty (Fmt.fmaI binary64 (Itv.entire : Itv) (Itv.empty : Itv) (⟨(f (-2) (0)), .pinf⟩ : Itv) : Itv)),
    (1791, Itv.isEmpty (Fmt.fmaI binary64 (⟨(f 0 0), (f 0 0)⟩ : Itv) (Itv.empty : Itv) (⟨(f (-2) (0)), .pinf⟩ : Itv) : Itv)),
    (1792, Itv.isEmpty (Fmt.fmaI binary64 (⟨.nzero, .nzero⟩ : Itv) (Itv.empty : Itv) (⟨(f (-2) (0)), .pinf⟩ : Itv) : Itv)),
    (1793, Itv.isEmpty (Fmt.fmaI binary64 (Itv.empty : Itv) (⟨(f 0 0), (f 0 0)⟩ : Itv) (⟨(f (-2) (0)), .pinf⟩ : Itv) : Itv)),
    (1794, Itv.isEmpty (Fmt.fmaI binary64 (Itv.empty : Itv) (⟨.nzero, .nzero⟩ : Itv) (⟨(f (-2) (0)), .pinf⟩ : Itv) : Itv)),
    (1796, eqB (Fmt.fmaI binary64 (Itv.entire : Itv) (⟨(f 0 0), (f 0 0)⟩ : Itv) (⟨(f (-2) (0)), .pinf⟩ : Itv)) (⟨(f (-2) (0)), .pinf⟩)),
    (1797, eqB (Fmt.fmaI binary64 (Itv.entire : Itv) (⟨.nzero, .nzero⟩ : Itv) (⟨(f (-2) (0)), .pinf⟩ : Itv)) (⟨(f (-2) (0)), .pinf⟩)),
    (1798, eqB (Fmt.fmaI binary64 (Itv.entire : Itv) (⟨(f (-5) (0)), (f (-1) (0))⟩ : Itv) (⟨(f (-2) (0)), .pinf⟩ : Itv)) (Itv.entire)),
    (1799, eqB (Fmt.fmaI binary64 (Itv.entire : Itv) (⟨(f (-5) (0)), (f 3 0)⟩ : Itv) (⟨(f (-2) (0)), .pinf⟩ : Itv)) (Itv.entire)),
    (1800, eqB (Fmt.fmaI binary64 (Itv.entire : Itv) (⟨(f 1 0), (f 3 0)⟩ : Itv) (⟨(f (-2) (0)), .pinf⟩ : Itv)) (Itv.entire)),
    (1801, eqB (Fmt.fmaI binary64 (Itv.entire : Itv) (⟨.ninf, (f (-1) (0))⟩ : Itv) (⟨(f (-2) (0)), .pinf⟩ : Itv)) (Itv.entire)),
    (1802, eqB (Fmt.fmaI binary64 (Itv.entire : Itv) (⟨.ninf, (f 3 0)⟩ : Itv) (⟨(f (-2) (0)), .pinf⟩ : Itv)) (Itv.entire)),
    (1803, eqB (Fmt.fmaI binary64 (Itv.entire : Itv) (⟨(f (-5) (0)), .pinf⟩ : Itv) (⟨(f (-2) (0)), .pinf⟩ : Itv)) (Itv.entire)),
    (1804, eqB (Fmt.fmaI binary64 (Itv.entire : Itv) (⟨(f 1 0), .pinf⟩ : Itv) (⟨(f (-2) (0)), .pinf⟩ : Itv)) (Itv.entire)),
    (1805, eqB (Fmt.fmaI binary64 (Itv.entire : Itv) (Itv.entire : Itv) (⟨(f (-2) (0)), .pinf⟩ : Itv)) (Itv.entire)),
    (1807, eqB (Fmt.fmaI binary64 (⟨(f 1 0), .pinf⟩ : Itv) (⟨(f 0 0), (f 0 0)⟩ : Itv) (⟨(f (-2) (0)), .pinf⟩ : Itv)) (⟨(f (-2) (0)), .pinf⟩)),
    (1808, eqB (Fmt.fmaI binary64 (⟨(f 1 0), .pinf⟩ : Itv) (⟨.nzero, .nzero⟩ : Itv) (⟨(f (-2) (0)), .pinf⟩ : Itv)) (⟨(f (-2) (0)), .pinf⟩)),
    (1809, eqB (Fmt.fmaI binary64 (⟨(f 1 0), .pinf⟩ : Itv) (⟨(f (-5) (0)), (f (-1) (0))⟩ : Itv) (⟨(f (-2) (0)), .pinf⟩ : Itv)) (Itv.entire))] : List (ℕ × Bool)).all (·.2) = true := by
  decide +kernel

example : ([
    (1810, eqB (Fmt.fmaI binary64 (⟨(f 1 0), .pinf⟩ : Itv) (⟨(f (-5) (0)), (f 3 0)⟩ : Itv) (⟨(f (-2) (0)), .pinf⟩ : Itv)) (Itv.entire)),
    (1811, eqB (Fmt.fmaI binary64 (⟨(f 1 0), .pinf⟩ : Itv) (⟨(f 1 0), (f 3 0)⟩ : Itv) (⟨(f (-2) (0)), .pinf⟩ : Itv)) (⟨(f (-1) (0)), .pinf⟩)),
    (1812, eqB (Fmt.fmaI binary64 (⟨(f 1 0), .pinf⟩ : Itv) (⟨.ninf, (f (-1) (0))⟩ : Itv) (⟨(f (-2) (0)), .pinf⟩ : Itv)) (Itv.entire)),
    (1813, eqB (Fmt.fmaI binary64 (⟨(f 1 0), .pinf⟩ : Itv) (⟨.ninf, (f 3 0)⟩ : Itv) (⟨(f (-2) (0)), .pinf⟩ : Itv)) (Itv.entire)),
    (1814, eqB (Fmt.fmaI binary64 (⟨(f 1 0), .pinf⟩ : Itv) (⟨(f (-5) (0)), .pinf⟩ : Itv) (⟨(f (-2) (0)), .pinf⟩ : Itv)) (Itv.entire)),
    (1815, eqB (Fmt.fmaI binary64 (⟨(f 1 0), .pinf⟩ : Itv) (⟨(f 1 0), .pinf⟩ : Itv) (⟨(f (-2) (0)), .pinf⟩ : Itv)) (⟨(f (-1) (0)), .pinf⟩)),
    (1816, eqB (Fmt.fmaI binary64 (⟨(f 1 0), .pinf⟩ : Itv) (Itv.entire : Itv) (⟨(f (-2) (0)), .pinf⟩ : Itv)) (Itv.entire)),
    (1818, eqB (Fmt.fmaI binary64 (⟨(f (-1) (0)), .pinf⟩ : Itv) (⟨(f 0 0), (f 0 0)⟩ : Itv) (⟨(f (-2) (0)), .pinf⟩ : Itv)) (⟨(f (-2) (0)), .pinf⟩)),
    (1819, eqB (Fmt.fmaI binary64 (⟨(f (-1) (0)), .pinf⟩ : Itv) (⟨.nzero, .nzero⟩ : Itv) (⟨(f (-2) (0)), .pinf⟩ : Itv)) (⟨(f (-2) (0)), .pinf⟩)),
    (1820, eqB (Fmt.fmaI binary64 (⟨(f (-1) (0)), .pinf⟩ : Itv) (⟨(f (-5) (0)), (f (-1) (0))⟩ : Itv) (⟨(f (-2) (0)), .pinf⟩ : Itv)) (Itv.entire)),
    (1821, eqB (Fmt.fmaI binary64 (⟨(f (-1) (0)), .pinf⟩ : Itv) (⟨(f (-5) (0)), (f 3 0)⟩ : Itv) (⟨(f (-2) (0)), .pinf⟩ : Itv)) (Itv.entire)),
    (1822, eqB (Fmt.fmaI binary64 (⟨(f (-1) (0)), .pinf⟩ : Itv) (⟨(f 1 0), (f 3 0)⟩ : Itv) (⟨(f (-2) (0)), .pinf⟩ : Itv)) (⟨(f (-5) (0)), .pinf⟩)),
    (1823, eqB (Fmt.fmaI binary64 (⟨(f (-1) (0)), .pinf⟩ : Itv) (⟨.ninf, (f (-1) (0))⟩ : Itv) (⟨(f (-2) (0)), .pinf⟩ : Itv)) (Itv.entire)),
    (1824, eqB (Fmt.fmaI binary64 (⟨(f (-1) (0)), .pinf⟩ : Itv) (⟨.ninf, (f 3 0)⟩ : Itv) (⟨(f (-2) (0)), .pinf⟩ : Itv)) (Itv.entire)),
    (1825, eqB (Fmt.fmaI binary64 (⟨(f (-1) (0)), .pinf⟩ : Itv) (⟨(f (-5) (0)), .pinf⟩ : Itv) (⟨(f (-2) (0)), .pinf⟩ : Itv)) (Itv.entire)),
    (1826, eqB (Fmt.fmaI binary64 (⟨(f (-1) (0)), .pinf⟩ : Itv) (⟨(f 1 0), .pinf⟩ : Itv) (⟨(f (-2) (0)), .pinf⟩ : Itv)) (Itv.entire)),
    (1827, eqB (Fmt.fmaI binary64 (⟨(f (-1) (0)), .pinf⟩ : Itv) (Itv.entire : Itv) (⟨(f (-2) (0)), .pinf⟩ : Itv)) (Itv.entire)),
    (1829, eqB (Fmt.fmaI binary64 (⟨.ninf, (f 3 0)⟩ : Itv) (⟨(f 0 0), (f 0 0)⟩ : Itv) (⟨(f (-2) (0)), .pinf⟩ : Itv)) (⟨(f (-2) (0)), .pinf⟩)),
    (1830, eqB (Fmt.fmaI binary64 (⟨.ninf, (f 3 0)⟩ : Itv) (⟨.nzero, .nzero⟩ : Itv) (⟨(f (-2) (0)), .pinf⟩ : Itv)) (⟨(f (-2) (0)), .pinf⟩)),
    (1831, eqB (Fmt.fmaI binary64 (⟨.ninf, (f 3 0)⟩ : Itv) (⟨(f (-5) (0)), (f (-1) (0))⟩ : Itv) (⟨(f (-2) (0)), .pinf⟩ : Itv)) (⟨(f (-17) (0)), .pinf⟩)),
    (1832, eqB (Fmt.fmaI binary64 (⟨.ninf, (f 3 0)⟩ : Itv) (⟨(f (-5) (0)), (f 3 0)⟩ : Itv) (⟨(f (-2) (0)), .pinf⟩ : Itv)) (Itv.entire)),
    (1833, eqB (Fmt.fmaI binary64 (⟨.ninf, (f 3 0)⟩ : Itv) (⟨(f 1 0), (f 3 0)⟩ : Itv) (⟨(f (-2) (0)), .pinf⟩ : Itv)) (Itv.entire)),
    (1834, eqB (Fmt.fmaI binary64 (⟨.ninf, (f 3 0)⟩ : Itv) (⟨.ninf, (f (-1) (0))⟩ : Itv) (⟨(f (-2) (0)), .pinf⟩ : Itv)) (Itv.entire)),
    (1835, eqB (Fmt.fmaI binary64 (⟨.ninf, (f 3 0)⟩ : Itv) (⟨.ninf, (f 3 0)⟩ : Itv) (⟨(f (-2) (0)), .pinf⟩ : Itv)) (Itv.entire)),
    (1836, eqB (Fmt.fmaI binary64 (⟨.ninf, (f 3 0)⟩ : Itv) (⟨(f (-5) (0)), .pinf⟩ : Itv) (⟨(f (-2) (0)), .pinf⟩ : Itv)) (Itv.entire)),
    (1837, eqB (Fmt.fmaI binary64 (⟨.ninf, (f 3 0)⟩ : Itv) (⟨(f 1 0), .pinf⟩ : Itv) (⟨(f (-2) (0)), .pinf⟩ : Itv)) (Itv.entire)),
    (1838, eqB (Fmt.fmaI binary64 (⟨.ninf, (f 3 0)⟩ : Itv) (Itv.entire : Itv) (⟨(f (-2) (0)), .pinf⟩ : Itv)) (Itv.entire)),
    (1840, eqB (Fmt.fmaI binary64 (⟨.ninf, (f (-3) (0))⟩ : Itv) (⟨(f 0 0), (f 0 0)⟩ : Itv) (⟨(f (-2) (0)), .pinf⟩ : Itv)) (⟨(f (-2) (0)), .pinf⟩)),
    (1841, eqB (Fmt.fmaI binary64 (⟨.ninf, (f (-3) (0))⟩ : Itv) (⟨.nzero, .nzero⟩ : Itv) (⟨(f (-2) (0)), .pinf⟩ : Itv)) (⟨(f (-2) (0)), .pinf⟩)),
    (1842, eqB (Fmt.fmaI binary64 (⟨.ninf, (f (-3) (0))⟩ : Itv) (⟨(f (-5) (0)), (f (-1) (0))⟩ : Itv) (⟨(f (-2) (0)), .pinf⟩ : Itv)) (⟨(f 1 0), .pinf⟩)),
    (1843, eqB (Fmt.fmaI binary64 (⟨.ninf, (f (-3) (0))⟩ : Itv) (⟨(f (-5) (0)), (f 3 0)⟩ : Itv) (⟨(f (-2) (0)), .pinf⟩ : Itv)) (Itv.entire)),
    (1844, eqB (Fmt.fmaI binary64 (⟨.ninf, (f (-3) (0))⟩ : Itv) (⟨(f 1 0), (f 3 0)⟩ : Itv) (⟨(f (-2) (0)), .pinf⟩ : Itv)) (Itv.entire)),
    (1845, eqB (Fmt.fmaI binary64 (⟨.ninf, (f (-3) (0))⟩ : Itv) (⟨.ninf, (f (-1) (0))⟩ : Itv) (⟨(f (-2) (0)), .pinf⟩ : Itv)) (⟨(f 1 0), .pinf⟩)),
    (1846, eqB (Fmt.fmaI binary64 (⟨.ninf, (f (-3) (0))⟩ : Itv) (⟨.ninf, (f 3 0)⟩ : Itv) (⟨(f (-2) (0)), .pinf⟩ : Itv)) (Itv.entire)),
    (1847, eqB (Fmt.fmaI binary64 (⟨.ninf, (f (-3) (0))⟩ : Itv) (⟨(f (-5) (0)), .pinf⟩ : Itv) (⟨(f (-2) (0)), .pinf⟩ : Itv)) (Itv.entire)),
    (1848, eqB (Fmt.fmaI binary64 (⟨.ninf, (f (-3) (0))⟩ : Itv) (⟨(f 1 0), .pinf⟩ : Itv) (⟨(f (-2) (0)), .pinf⟩ : Itv)) (Itv.entire)),
    (1849, eqB (Fmt.fmaI binary64 (⟨.ninf, (f (-3) (0))⟩ : Itv) (Itv.entire : Itv) (⟨(f (-2) (0)), .pinf⟩ : Itv)) (Itv.entire)),
    (1851, eqB (Fmt.fmaI binary64 (⟨(f 0 0), (f 0 0)⟩ : Itv) (⟨(f 0 0), (f 0 0)⟩ : Itv) (⟨(f (-2) (0)), .pinf⟩ : Itv)) (⟨(f (-2) (0)), .pinf⟩)),
    (1852, eqB (Fmt.fmaI binary64 (⟨(f 0 0), (f 0 0)⟩ : Itv) (⟨.nzero, .nzero⟩ : Itv) (⟨(f (-2) (0)), .pinf⟩ : Itv)) (⟨(f (-2) (0)), .pinf⟩)),
    (1853, eqB (Fmt.fmaI binary64 (⟨(f 0 0), (f 0 0)⟩ : Itv) (⟨(f (-5) (0)), (f (-1) (0))⟩ : Itv) (⟨(f (-2) (0)), .pinf⟩ : Itv)) (⟨(f (-2) (0)), .pinf⟩)),
    (1854, eqB (Fmt.fmaI binary64 (⟨(f 0 0), (f 0 0)⟩ : Itv) (⟨(f (-5) (0)), (f 3 0)⟩ : Itv) (⟨(f (-2) (0)), .pinf⟩ : Itv)) (⟨(f (-2) (0)), .pinf⟩)),
    (1855, eqB (Fmt.fmaI binary64 (⟨(f 0 0), (f 0 0)⟩ : Itv) (⟨(f 1 0), (f 3 0)⟩ : Itv) (⟨(f (-2) (0)), .pinf⟩ : Itv)) (⟨(f (-2) (0)), .pinf⟩)),
    (1856, eqB (Fmt.fmaI binary64 (⟨(f 0 0), (f 0 0)⟩ : Itv) (⟨.ninf, (f (-1) (0))⟩ : Itv) (⟨(f (-2) (0)), .pinf⟩ : Itv)) (⟨(f (-2) (0)), .pinf⟩)),
    (1857, eqB (Fmt.fmaI binary64 (⟨(f 0 0), (f 0 0)⟩ : Itv) (⟨.ninf, (f 3 0)⟩ : Itv) (⟨(f (-2) (0)), .pinf⟩ : Itv)) (⟨(f (-2) (0)), .pinf⟩)),
    (1858, eqB (Fmt.fmaI binary64 (⟨(f 0 0), (f 0 0)⟩ : Itv) (⟨(f (-5) (0)), .pinf⟩ : Itv) (⟨(f (-2) (0)), .pinf⟩ : Itv)) (⟨(f (-2) (0)), .pinf⟩)),
    (1859, eqB (Fmt.fmaI binary64 (⟨(f 0 0), (f 0 0)⟩ : Itv) (⟨(f 1 0), .pinf⟩ : Itv) (⟨(f (-2) (0)), .pinf⟩ : Itv)) (⟨(f (-2) (0)), .pinf⟩)),
    (1860, eqB (Fmt.fmaI binary64 (⟨(f 0 0), (f 0 0)⟩ : Itv) (Itv.entire : Itv) (⟨(f (-2) (0)), .pinf⟩ : Itv)) (⟨(f (-2) (0)), .pinf⟩)),
    (1862, eqB (Fmt.fmaI binary64 (⟨.nzero, .nzero⟩ : Itv) (⟨(f 0 0), (f 0 0)⟩ : Itv) (⟨(f (-2) (0)), .pinf⟩ : Itv)) (⟨(f (-2) (0)), .pinf⟩)),
    (1863, eqB (Fmt.fmaI binary64 (⟨.nzero, .nzero⟩ : Itv) (⟨.nzero, .nzero⟩ : Itv) (⟨(f (-2) (0)), .pinf⟩ : Itv)) (⟨(f (-2) (0)), .pinf⟩)),
    (1864, eqB (Fmt.fmaI binary64 (⟨.nzero, .nzero⟩ : Itv) (⟨(f (-5) (0)), (f (-1) (0))⟩ : Itv) (⟨(f (-2) (0)), .pinf⟩ : Itv)) (⟨(f (-2) (0)), .pinf⟩))] : List (ℕ × Bool)).all (·.2) = true := by
  decide +kernel

example : ([
    (1865, eqB (Fmt.fmaI binary64 (⟨.nzero, .nzero⟩ : Itv) (⟨(f (-5) (0)), (f 3 0)⟩ : Itv) (⟨(f (-2) (0)), .pinf⟩ : Itv)) (⟨(f (-2) (0)), .pinf⟩)),
    (1866, eqB (Fmt.fmaI binary64 (⟨.nzero, .nzero⟩ : Itv) (⟨(f 1 0), (f 3 0)⟩ : Itv) (⟨(f (-2) (0)), .pinf⟩ : Itv)) (⟨(f (-2) (0)), .pinf⟩)),
    (1867, eqB (Fmt.fmaI binary64 (⟨.nzero, .nzero⟩ : Itv) (⟨.ninf, (f (-1) (0))⟩ : Itv) (⟨(f (-2) (0)), .pinf⟩ : Itv)) (⟨(f (-2) (0)), .pinf⟩)),
    (1868, eqB (Fmt.fmaI binary64 (⟨.nzero, .nzero⟩ : Itv) (⟨.ninf, (f 3 0)⟩ : Itv) (⟨(f (-2) (0)), .pinf⟩ : Itv)) (⟨(f (-2) (0)), .pinf⟩)),
    (1869, eqB (Fmt.fmaI binary64 (⟨.nzero, .nzero⟩ : Itv) (⟨(f (-5) (0)), .pinf⟩ : Itv) (⟨(f (-2) (0)), .pinf⟩ : Itv)) (⟨(f (-2) (0)), .pinf⟩)),
    (1870, eqB (Fmt.fmaI binary64 (⟨.nzero, .nzero⟩ : Itv) (⟨(f 1 0), .pinf⟩ : Itv) (⟨(f (-2) (0)), .pinf⟩ : Itv)) (⟨(f (-2) (0)), .pinf⟩)),
    (1871, eqB (Fmt.fmaI binary64 (⟨.nzero, .nzero⟩ : Itv) (Itv.entire : Itv) (⟨(f (-2) (0)), .pinf⟩ : Itv)) (⟨(f (-2) (0)), .pinf⟩)),
    (1873, eqB (Fmt.fmaI binary64 (⟨(f 1 0), (f 5 0)⟩ : Itv) (⟨(f 0 0), (f 0 0)⟩ : Itv) (⟨(f (-2) (0)), .pinf⟩ : Itv)) (⟨(f (-2) (0)), .pinf⟩)),
    (1874, eqB (Fmt.fmaI binary64 (⟨(f 1 0), (f 5 0)⟩ : Itv) (⟨.nzero, .nzero⟩ : Itv) (⟨(f (-2) (0)), .pinf⟩ : Itv)) (⟨(f (-2) (0)), .pinf⟩)),
    (1875, eqB (Fmt.fmaI binary64 (⟨(f 1 0), (f 5 0)⟩ : Itv) (⟨(f (-5) (0)), (f (-1) (0))⟩ : Itv) (⟨(f (-2) (0)), .pinf⟩ : Itv)) (⟨(f (-27) (0)), .pinf⟩)),
    (1876, eqB (Fmt.fmaI binary64 (⟨(f 1 0), (f 5 0)⟩ : Itv) (⟨(f (-5) (0)), (f 3 0)⟩ : Itv) (⟨(f (-2) (0)), .pinf⟩ : Itv)) (⟨(f (-27) (0)), .pinf⟩)),
    (1877, eqB (Fmt.fmaI binary64 (⟨(f 1 0), (f 5 0)⟩ : Itv) (⟨(f 1 0), (f 3 0)⟩ : Itv) (⟨(f (-2) (0)), .pinf⟩ : Itv)) (⟨(f (-1) (0)), .pinf⟩)),
    (1878, eqB (Fmt.fmaI binary64 (⟨(f 1 0), (f 5 0)⟩ : Itv) (⟨.ninf, (f (-1) (0))⟩ : Itv) (⟨(f (-2) (0)), .pinf⟩ : Itv)) (Itv.entire)),
    (1879, eqB (Fmt.fmaI binary64 (⟨(f 1 0), (f 5 0)⟩ : Itv) (⟨.ninf, (f 3 0)⟩ : Itv) (⟨(f (-2) (0)), .pinf⟩ : Itv)) (Itv.entire)),
    (1880, eqB (Fmt.fmaI binary64 (⟨(f 1 0), (f 5 0)⟩ : Itv) (⟨(f (-5) (0)), .pinf⟩ : Itv) (⟨(f (-2) (0)), .pinf⟩ : Itv)) (⟨(f (-27) (0)), .pinf⟩)),
    (1881, eqB (Fmt.fmaI binary64 (⟨(f 1 0), (f 5 0)⟩ : Itv) (⟨(f 1 0), .pinf⟩ : Itv) (⟨(f (-2) (0)), .pinf⟩ : Itv)) (⟨(f (-1) (0)), .pinf⟩)),
    (1882, eqB (Fmt.fmaI binary64 (⟨(f 1 0), (f 5 0)⟩ : Itv) (Itv.entire : Itv) (⟨(f (-2) (0)), .pinf⟩ : Itv)) (Itv.entire)),
    (1884, eqB (Fmt.fmaI binary64 (⟨(f (-1) (0)), (f 5 0)⟩ : Itv) (⟨.nzero, .nzero⟩ : Itv) (⟨(f (-2) (0)), .pinf⟩ : Itv)) (⟨(f (-2) (0)), .pinf⟩)),
    (1885, eqB (Fmt.fmaI binary64 (⟨(f (-1) (0)), (f 5 0)⟩ : Itv) (⟨(f 0 0), (f 0 0)⟩ : Itv) (⟨(f (-2) (0)), .pinf⟩ : Itv)) (⟨(f (-2) (0)), .pinf⟩)),
    (1886, eqB (Fmt.fmaI binary64 (⟨(f (-1) (0)), (f 5 0)⟩ : Itv) (⟨(f (-5) (0)), (f (-1) (0))⟩ : Itv) (⟨(f (-2) (0)), .pinf⟩ : Itv)) (⟨(f (-27) (0)), .pinf⟩)),
    (1888, eqB (Fmt.fmaI binary64 (⟨(f (-1) (0)), (f 5 0)⟩ : Itv) (⟨(f (-5) (0)), (f 3 0)⟩ : Itv) (⟨(f (-2) (0)), .pinf⟩ : Itv)) (⟨(f (-27) (0)), .pinf⟩)),
    (1889, eqB (Fmt.fmaI binary64 (⟨(f (-10) (0)), (f 2 0)⟩ : Itv) (⟨(f (-5) (0)), (f 3 0)⟩ : Itv) (⟨(f (-2) (0)), .pinf⟩ : Itv)) (⟨(f (-32) (0)), .pinf⟩)),
    (1890, eqB (Fmt.fmaI binary64 (⟨(f (-1) (0)), (f 5 0)⟩ : Itv) (⟨(f (-1) (0)), (f 10 0)⟩ : Itv) (⟨(f (-2) (0)), .pinf⟩ : Itv)) (⟨(f (-12) (0)), .pinf⟩)),
    (1891, eqB (Fmt.fmaI binary64 (⟨(f (-2) (0)), (f 2 0)⟩ : Itv) (⟨(f (-5) (0)), (f 3 0)⟩ : Itv) (⟨(f (-2) (0)), .pinf⟩ : Itv)) (⟨(f (-12) (0)), .pinf⟩)),
    (1893, eqB (Fmt.fmaI binary64 (⟨(f (-1) (0)), (f 5 0)⟩ : Itv) (⟨(f 1 0), (f 3 0)⟩ : Itv) (⟨(f (-2) (0)), .pinf⟩ : Itv)) (⟨(f (-5) (0)), .pinf⟩)),
    (1894, eqB (Fmt.fmaI binary64 (⟨(f (-1) (0)), (f 5 0)⟩ : Itv) (⟨.ninf, (f (-1) (0))⟩ : Itv) (⟨(f (-2) (0)), .pinf⟩ : Itv)) (Itv.entire)),
    (1895, eqB (Fmt.fmaI binary64 (⟨(f (-1) (0)), (f 5 0)⟩ : Itv) (⟨.ninf, (f 3 0)⟩ : Itv) (⟨(f (-2) (0)), .pinf⟩ : Itv)) (Itv.entire)),
    (1896, eqB (Fmt.fmaI binary64 (⟨(f (-1) (0)), (f 5 0)⟩ : Itv) (⟨(f (-5) (0)), .pinf⟩ : Itv) (⟨(f (-2) (0)), .pinf⟩ : Itv)) (Itv.entire)),
    (1897, eqB (Fmt.fmaI binary64 (⟨(f (-1) (0)), (f 5 0)⟩ : Itv) (⟨(f 1 0), .pinf⟩ : Itv) (⟨(f (-2) (0)), .pinf⟩ : Itv)) (Itv.entire)),
    (1898, eqB (Fmt.fmaI binary64 (⟨(f (-1) (0)), (f 5 0)⟩ : Itv) (Itv.entire : Itv) (⟨(f (-2) (0)), .pinf⟩ : Itv)) (Itv.entire)),
    (1900, eqB (Fmt.fmaI binary64 (⟨(f (-10) (0)), (f (-5) (0))⟩ : Itv) (⟨(f 0 0), (f 0 0)⟩ : Itv) (⟨(f (-2) (0)), .pinf⟩ : Itv)) (⟨(f (-2) (0)), .pinf⟩)),
    (1901, eqB (Fmt.fmaI binary64 (⟨(f (-10) (0)), (f (-5) (0))⟩ : Itv) (⟨.nzero, .nzero⟩ : Itv) (⟨(f (-2) (0)), .pinf⟩ : Itv)) (⟨(f (-2) (0)), .pinf⟩)),
    (1902, eqB (Fmt.fmaI binary64 (⟨(f (-10) (0)), (f (-5) (0))⟩ : Itv) (⟨(f (-5) (0)), (f (-1) (0))⟩ : Itv) (⟨(f (-2) (0)), .pinf⟩ : Itv)) (⟨(f 3 0), .pinf⟩)),
    (1903, eqB (Fmt.fmaI binary64 (⟨(f (-10) (0)), (f (-5) (0))⟩ : Itv) (⟨(f (-5) (0)), (f 3 0)⟩ : Itv) (⟨(f (-2) (0)), .pinf⟩ : Itv)) (⟨(f (-32) (0)), .pinf⟩)),
    (1904, eqB (Fmt.fmaI binary64 (⟨(f (-10) (0)), (f (-5) (0))⟩ : Itv) (⟨(f 1 0), (f 3 0)⟩ : Itv) (⟨(f (-2) (0)), .pinf⟩ : Itv)) (⟨(f (-32) (0)), .pinf⟩)),
    (1905, eqB (Fmt.fmaI binary64 (⟨(f (-10) (0)), (f (-5) (0))⟩ : Itv) (⟨.ninf, (f (-1) (0))⟩ : Itv) (⟨(f (-2) (0)), .pinf⟩ : Itv)) (⟨(f 3 0), .pinf⟩)),
    (1906, eqB (Fmt.fmaI binary64 (⟨(f (-10) (0)), (f (-5) (0))⟩ : Itv) (⟨.ninf, (f 3 0)⟩ : Itv) (⟨(f (-2) (0)), .pinf⟩ : Itv)) (⟨(f (-32) (0)), .pinf⟩)),
    (1907, eqB (Fmt.fmaI binary64 (⟨(f (-10) (0)), (f (-5) (0))⟩ : Itv) (⟨(f (-5) (0)), .pinf⟩ : Itv) (⟨(f (-2) (0)), .pinf⟩ : Itv)) (Itv.entire)),
    (1908, eqB (Fmt.fmaI binary64 (⟨(f (-10) (0)), (f (-5) (0))⟩ : Itv) (⟨(f 1 0), .pinf⟩ : Itv) (⟨(f (-2) (0)), .pinf⟩ : Itv)) (Itv.entire)),
    (1909, eqB (Fmt.fmaI binary64 (⟨(f (-10) (0)), (f (-5) (0))⟩ : Itv) (Itv.entire : Itv) (⟨(f (-2) (0)), .pinf⟩ : Itv)) (Itv.entire)),
    (1913, Itv.isEmpty (Fmt.fmaI binary64 (Itv.empty : Itv) (Itv.empty : Itv) (Itv.entire : Itv) : Itv)),
    (1914, Itv.isEmpty (Fmt.fmaI binary64 (⟨(f (-1) (0)), (f 1 0)⟩ : Itv) (Itv.empty : Itv) (Itv.entire : Itv) : Itv)),
    (1915, Itv.isEmpty (Fmt.fmaI binary64 (Itv.empty : Itv) (⟨(f (-1) (0)), (f 1 0)⟩ : Itv) (Itv.entire : Itv) : Itv)),
    (1916, Itv.isEmpty (Fmt.fmaI binary64 (Itv.empty : Itv) (Itv.entire : Itv) (Itv.entire : Itv) : Itv)),
    (1917, Itv.isEmpty (Fmt.fmaI binary64 (Itv.entire : Itv) (Itv.empty : Itv) (Itv.entire : Itv) : Itv)),
    (1918, Itv.isEmpty (Fmt.fmaI binary64 (⟨(f 0 0), (f 0 0)⟩ : Itv) (Itv.empty : Itv) (Itv.entire : Itv) : Itv)),
    (1919, Itv.isEmpty (Fmt.fmaI binary64 (⟨.nzero, .nzero⟩ : Itv) (Itv.empty : Itv) (Itv.entire : Itv) : Itv)),
    (1920, Itv.isEmpty (Fmt.fmaI binary64 (Itv.empty : Itv) (⟨(f 0 0), (f 0 0)⟩ : Itv) (Itv.entire : Itv) : Itv)),
    (1921, Itv.isEmpty (Fmt.fmaI binary64 (Itv.empty : Itv) (⟨.nzero, .nzero⟩ : Itv) (Itv.entire : Itv) : Itv)),
    (1923, eqB (Fmt.fmaI binary64 (Itv.entire : Itv) (⟨(f 0 0), (f 0 0)⟩ : Itv) (Itv.entire : Itv)) (Itv.entire))] : List (ℕ × Bool)).all (·.2) = true := by
  decide +kernel

example : ([
    (1924, eqB (Fmt.fmaI binary64 (Itv.entire : Itv) (⟨.nzero, .nzero⟩ : Itv) (Itv.entire : Itv)) (Itv.entire)),
    (1925, eqB (Fmt.fmaI binary64 (Itv.entire : Itv) (⟨(f (-5) (0)), (f (-1) (0))⟩ : Itv) (Itv.entire : Itv)) (Itv.entire)),
    (1926, eqB (Fmt.fmaI binary64 (Itv.entire : Itv) (⟨(f (-5) (0)), (f 3 0)⟩ : Itv) (Itv.entire : Itv)) (Itv.entire)),
    (1927, eqB (Fmt.fmaI binary64 (Itv.entire : Itv) (⟨(f 1 0), (f 3 0)⟩ : Itv) (Itv.entire : Itv)) (Itv.entire)),
    (1928, eqB (Fmt.fmaI binary64 (Itv.entire : Itv) (⟨.ninf, (f (-1) (0))⟩ : Itv) (Itv.entire : Itv)) (Itv.entire)),
    (1929, eqB (Fmt.fmaI binary64 (Itv.entire : Itv) (⟨.ninf, (f 3 0)⟩ : Itv) (Itv.entire : Itv)) (Itv.entire)),
    (1930, eqB (Fmt.fmaI binary64 (Itv.entire : Itv) (⟨(f (-5) (0)), .pinf⟩ : Itv) (Itv.entire : Itv)) (Itv.entire)),
    (1931, eqB (Fmt.fmaI binary64 (Itv.entire : Itv) (⟨(f 1 0), .pinf⟩ : Itv) (Itv.entire : Itv)) (Itv.entire)),
    (1932, eqB (Fmt.fmaI binary64 (Itv.entire : Itv) (Itv.entire : Itv) (Itv.entire : Itv)) (Itv.entire)),
    (1934, eqB (Fmt.fmaI binary64 (⟨(f 1 0), .pinf⟩ : Itv) (⟨(f 0 0), (f 0 0)⟩ : Itv) (Itv.entire : Itv)) (Itv.entire)),
    (1935, eqB (Fmt.fmaI binary64 (⟨(f 1 0), .pinf⟩ : Itv) (⟨.nzero, .nzero⟩ : Itv) (Itv.entire : Itv)) (Itv.entire)),
    (1936, eqB (Fmt.fmaI binary64 (⟨(f 1 0), .pinf⟩ : Itv) (⟨(f (-5) (0)), (f (-1) (0))⟩ : Itv) (Itv.entire : Itv)) (Itv.entire)),
    (1937, eqB (Fmt.fmaI binary64 (⟨(f 1 0), .pinf⟩ : Itv) (⟨(f (-5) (0)), (f 3 0)⟩ : Itv) (Itv.entire : Itv)) (Itv.entire)),
    (1938, eqB (Fmt.fmaI binary64 (⟨(f 1 0), .pinf⟩ : Itv) (⟨(f 1 0), (f 3 0)⟩ : Itv) (Itv.entire : Itv)) (Itv.entire)),
    (1939, eqB (Fmt.fmaI binary64 (⟨(f 1 0), .pinf⟩ : Itv) (⟨.ninf, (f (-1) (0))⟩ : Itv) (Itv.entire : Itv)) (Itv.entire)),
    (1940, eqB (Fmt.fmaI binary64 (⟨(f 1 0), .pinf⟩ : Itv) (⟨.ninf, (f 3 0)⟩ : Itv) (Itv.entire : Itv)) (Itv.entire)),
    (1941, eqB (Fmt.fmaI binary64 (⟨(f 1 0), .pinf⟩ : Itv) (⟨(f (-5) (0)), .pinf⟩ : Itv) (Itv.entire : Itv)) (Itv.entire)),
    (1942, eqB (Fmt.fmaI binary64 (⟨(f 1 0), .pinf⟩ : Itv) (⟨(f 1 0), .pinf⟩ : Itv) (Itv.entire : Itv)) (Itv.entire)),
    (1943, eqB (Fmt.fmaI binary64 (⟨(f 1 0), .pinf⟩ : Itv) (Itv.entire : Itv) (Itv.entire : Itv)) (Itv.entire)),
    (1945, eqB (Fmt.fmaI binary64 (⟨(f (-1) (0)), .pinf⟩ : Itv) (⟨(f 0 0), (f 0 0)⟩ : Itv) (Itv.entire : Itv)) (Itv.entire)),
    (1946, eqB (Fmt.fmaI binary64 (⟨(f (-1) (0)), .pinf⟩ : Itv) (⟨.nzero, .nzero⟩ : Itv) (Itv.entire : Itv)) (Itv.entire)),
    (1947, eqB (Fmt.fmaI binary64 (⟨(f (-1) (0)), .pinf⟩ : Itv) (⟨(f (-5) (0)), (f (-1) (0))⟩ : Itv) (Itv.entire : Itv)) (Itv.entire)),
    (1948, eqB (Fmt.fmaI binary64 (⟨(f (-1) (0)), .pinf⟩ : Itv) (⟨(f (-5) (0)), (f 3 0)⟩ : Itv) (Itv.entire : Itv)) (Itv.entire)),
    (1949, eqB (Fmt.fmaI binary64 (⟨(f (-1) (0)), .pinf⟩ : Itv) (⟨(f 1 0), (f 3 0)⟩ : Itv) (Itv.entire : Itv)) (Itv.entire)),
    (1950, eqB (Fmt.fmaI binary64 (⟨(f (-1) (0)), .pinf⟩ : Itv) (⟨.ninf, (f (-1) (0))⟩ : Itv) (Itv.entire : Itv)) (Itv.entire)),
    (1951, eqB (Fmt.fmaI binary64 (⟨(f (-1) (0)), .pinf⟩ : Itv) (⟨.ninf, (f 3 0)⟩ : Itv) (Itv.entire : Itv)) (Itv.entire)),
    (1952, eqB (Fmt.fmaI binary64 (⟨(f (-1) (0)), .pinf⟩ : Itv) (⟨(f (-5) (0)), .pinf⟩ : Itv) (Itv.entire : Itv)) (Itv.entire)),
    (1953, eqB (Fmt.fmaI binary64 (⟨(f (-1) (0)), .pinf⟩ : Itv) (⟨(f 1 0), .pinf⟩ : Itv) (Itv.entire : Itv)) (Itv.entire)),
    (1954, eqB (Fmt.fmaI binary64 (⟨(f (-1) (0)), .pinf⟩ : Itv) (Itv.entire : Itv) (Itv.entire : Itv)) (Itv.entire)),
    (1956, eqB (Fmt.fmaI binary64 (⟨.ninf, (f 3 0)⟩ : Itv) (⟨(f 0 0), (f 0 0)⟩ : Itv) (Itv.entire : Itv)) (Itv.entire)),
    (1957, eqB (Fmt.fmaI binary64 (⟨.ninf, (f 3 0)⟩ : Itv) (⟨.nzero, .nzero⟩ : Itv) (Itv.entire : Itv)) (Itv.entire)),
    (1958, eqB (Fmt.fmaI binary64 (⟨.ninf, (f 3 0)⟩ : Itv) (⟨(f (-5) (0)), (f (-1) (0))⟩ : Itv) (Itv.entire : Itv)) (Itv.entire)),
    (1959, eqB (Fmt.fmaI binary64 (⟨.ninf, (f 3 0)⟩ : Itv) (⟨(f (-5) (0)), (f 3 0)⟩ : Itv) (Itv.entire : Itv)) (Itv.entire)),
    (1960, eqB (Fmt.fmaI binary64 (⟨.ninf, (f 3 0)⟩ : Itv) (⟨(f 1 0), (f 3 0)⟩ : Itv) (Itv.entire : Itv)) (Itv.entire)),
    (1961, eqB (Fmt.fmaI binary64 (⟨.ninf, (f 3 0)⟩ : Itv) (⟨.ninf, (f (-1) (0))⟩ : Itv) (Itv.entire : Itv)) (Itv.entire)),
    (1962, eqB (Fmt.fmaI binary64 (⟨.ninf, (f 3 0)⟩ : Itv) (⟨.ninf, (f 3 0)⟩ : Itv) (Itv.entire : Itv)) (Itv.entire)),
    (1963, eqB (Fmt.fmaI binary64 (⟨.ninf, (f 3 0)⟩ : Itv) (⟨(f (-5) (0)), .pinf⟩ : Itv) (Itv.entire : Itv)) (Itv.entire)),
    (1964, eqB (Fmt.fmaI binary64 (⟨.ninf, (f 3 0)⟩ : Itv) (⟨(f 1 0), .pinf⟩ : Itv) (Itv.entire : Itv)) (Itv.entire)),
    (1965, eqB (Fmt.fmaI binary64 (⟨.ninf, (f 3 0)⟩ : Itv) (Itv.entire : Itv) (Itv.entire : Itv)) (Itv.entire)),
    (1967, eqB (Fmt.fmaI binary64 (⟨.ninf, (f (-3) (0))⟩ : Itv) (⟨(f 0 0), (f 0 0)⟩ : Itv) (Itv.entire : Itv)) (Itv.entire)),
    (1968, eqB (Fmt.fmaI binary64 (⟨.ninf, (f (-3) (0))⟩ : Itv) (⟨.nzero, .nzero⟩ : Itv) (Itv.entire : Itv)) (Itv.entire)),
    (1969, eqB (Fmt.fmaI binary64 (⟨.ninf, (f (-3) (0))⟩ : Itv) (⟨(f (-5) (0)), (f (-1) (0))⟩ : Itv) (Itv.entire : Itv)) (Itv.entire)),
    (1970, eqB (Fmt.fmaI binary64 (⟨.ninf, (f (-3) (0))⟩ : Itv) (⟨(f (-5) (0)), (f 3 0)⟩ : Itv) (Itv.entire : Itv)) (Itv.entire)),
    (1971, eqB (Fmt.fmaI binary64 (⟨.ninf, (f (-3) (0))⟩ : Itv) (⟨(f 1 0), (f 3 0)⟩ : Itv) (Itv.entire : Itv)) (Itv.entire)),
    (1972, eqB (Fmt.fmaI binary64 (⟨.ninf, (f (-3) (0))⟩ : Itv) (⟨.ninf, (f (-1) (0))⟩ : Itv) (Itv.entire : Itv)) (Itv.entire)),
    (1973, eqB (Fmt.fmaI binary64 (⟨.ninf, (f (-3) (0))⟩ : Itv) (⟨.ninf, (f 3 0)⟩ : Itv) (Itv.entire : Itv)) (Itv.entire)),
    (1974, eqB (Fmt.fmaI binary64 (⟨.ninf, (f (-3) (0))⟩ : Itv) (⟨(f (-5) (0)), .pinf⟩ : Itv) (Itv.entire : Itv)) (Itv.entire)),
    (1975, eqB (Fmt.fmaI binary64 (⟨.ninf, (f (-3) (0))⟩ : Itv) (⟨(f 1 0), .pinf⟩ : Itv) (Itv.entire : Itv)) (Itv.entire)),
    (1976, eqB (Fmt.fmaI binary64 (⟨.ninf, (f (-3) (0))⟩ : Itv) (Itv.entire : Itv) (Itv.entire : Itv)) (Itv.entire)),
    (1978, eqB (Fmt.fmaI binary64 (⟨(f 0 0), (f 0 0)⟩ : Itv) (⟨(f 0 0), (f 0 0)⟩ : Itv) (Itv.entire : Itv)) (Itv.entire))] : List (ℕ × Bool)).all (·.2) = true := by
  decide +kernel

example : ([
    (1979, eqB (Fmt.fmaI binary64 (⟨(f 0 0), (f 0 0)⟩ : Itv) (⟨.nzero, .nzero⟩ : Itv) (Itv.entire : Itv)) (Itv.entire)),
    (1980, eqB (Fmt.fmaI binary64 (⟨(f 0 0), (f 0 0)⟩ : Itv) (⟨(f (-5) (0)), (f (-1) (0))⟩ : Itv) (Itv.entire : Itv)) (Itv.entire)),
    (1981, eqB (Fmt.fmaI binary64 (⟨(f 0 0), (f 0 0)⟩ : Itv) (⟨(f (-5) (0)), (f 3 0)⟩ : Itv) (Itv.entire : Itv)) (Itv.entire)),
    (1982, eqB (Fmt.fmaI binary64 (⟨(f 0 0), (f 0 0)⟩ : Itv) (⟨(f 1 0), (f 3 0)⟩ : Itv) (Itv.entire : Itv)) (Itv.entire)),
    (1983, eqB (Fmt.fmaI binary64 (⟨(f 0 0), (f 0 0)⟩ : Itv) (⟨.ninf, (f (-1) (0))⟩ : Itv) (Itv.entire : Itv)) (Itv.entire)),
    (1984, eqB (Fmt.fmaI binary64 (⟨(f 0 0), (f 0 0)⟩ : Itv) (⟨.ninf, (f 3 0)⟩ : Itv) (Itv.entire : Itv)) (Itv.entire)),
    (1985, eqB (Fmt.fmaI binary64 (⟨(f 0 0), (f 0 0)⟩ : Itv) (⟨(f (-5) (0)), .pinf⟩ : Itv) (Itv.entire : Itv)) (Itv.entire)),
    (1986, eqB (Fmt.fmaI binary64 (⟨(f 0 0), (f 0 0)⟩ : Itv) (⟨(f 1 0), .pinf⟩ : Itv) (Itv.entire : Itv)) (Itv.entire)),
    (1987, eqB (Fmt.fmaI binary64 (⟨(f 0 0), (f 0 0)⟩ : Itv) (Itv.entire : Itv) (Itv.entire : Itv)) (Itv.entire)),
    (1989, eqB (Fmt.fmaI binary64 (⟨.nzero, .nzero⟩ : Itv) (⟨(f 0 0), (f 0 0)⟩ : Itv) (Itv.entire : Itv)) (Itv.entire)),
    (1990, eqB (Fmt.fmaI binary64 (⟨.nzero, .nzero⟩ : Itv) (⟨.nzero, .nzero⟩ : Itv) (Itv.entire : Itv)) (Itv.entire)),
    (1991, eqB (Fmt.fmaI binary64 (⟨.nzero, .nzero⟩ : Itv) (⟨(f (-5) (0)), (f (-1) (0))⟩ : Itv) (Itv.entire : Itv)) (Itv.entire)),
    (1992, eqB (Fmt.fmaI binary64 (⟨.nzero, .nzero⟩ : Itv) (⟨(f (-5) (0)), (f 3 0)⟩ : Itv) (Itv.entire : Itv)) (Itv.entire)),
    (1993, eqB (Fmt.fmaI binary64 (⟨.nzero, .nzero⟩ : Itv) (⟨(f 1 0), (f 3 0)⟩ : Itv) (Itv.entire : Itv)) (Itv.entire)),
    (1994, eqB (Fmt.fmaI binary64 (⟨.nzero, .nzero⟩ : Itv) (⟨.ninf, (f (-1) (0))⟩ : Itv) (Itv.entire : Itv)) (Itv.entire)),
    (1995, eqB (Fmt.fmaI binary64 (⟨.nzero, .nzero⟩ : Itv) (⟨.ninf, (f 3 0)⟩ : Itv) (Itv.entire : Itv)) (Itv.entire)),
    (1996, eqB (Fmt.fmaI binary64 (⟨.nzero, .nzero⟩ : Itv) (⟨(f (-5) (0)), .pinf⟩ : Itv) (Itv.entire : Itv)) (Itv.entire)),
    (1997, eqB (Fmt.fmaI binary64 (⟨.nzero, .nzero⟩ : Itv) (⟨(f 1 0), .pinf⟩ : Itv) (Itv.entire : Itv)) (Itv.entire)),
    (1998, eqB (Fmt.fmaI binary64 (⟨.nzero, .nzero⟩ : Itv) (Itv.entire : Itv) (Itv.entire : Itv)) (Itv.entire)),
    (2000, eqB (Fmt.fmaI binary64 (⟨(f 1 0), (f 5 0)⟩ : Itv) (⟨(f 0 0), (f 0 0)⟩ : Itv) (Itv.entire : Itv)) (Itv.entire)),
    (2001, eqB (Fmt.fmaI binary64 (⟨(f 1 0), (f 5 0)⟩ : Itv) (⟨.nzero, .nzero⟩ : Itv) (Itv.entire : Itv)) (Itv.entire)),
    (2002, eqB (Fmt.fmaI binary64 (⟨(f 1 0), (f 5 0)⟩ : Itv) (⟨(f (-5) (0)), (f (-1) (0))⟩ : Itv) (Itv.entire : Itv)) (Itv.entire)),
    (2003, eqB (Fmt.fmaI binary64 (⟨(f 1 0), (f 5 0)⟩ : Itv) (⟨(f (-5) (0)), (f 3 0)⟩ : Itv) (Itv.entire : Itv)) (Itv.entire)),
    (2004, eqB (Fmt.fmaI binary64 (⟨(f 1 0), (f 5 0)⟩ : Itv) (⟨(f 1 0), (f 3 0)⟩ : Itv) (Itv.entire : Itv)) (Itv.entire)),
    (2005, eqB (Fmt.fmaI binary64 (⟨(f 1 0), (f 5 0)⟩ : Itv) (⟨.ninf, (f (-1) (0))⟩ : Itv) (Itv.entire : Itv)) (Itv.entire)),
    (2006, eqB (Fmt.fmaI binary64 (⟨(f 1 0), (f 5 0)⟩ : Itv) (⟨.ninf, (f 3 0)⟩ : Itv) (Itv.entire : Itv)) (Itv.entire)),
    (2007, eqB (Fmt.fmaI binary64 (⟨(f 1 0), (f 5 0)⟩ : Itv) (⟨(f (-5) (0)), .pinf⟩ : Itv) (Itv.entire : Itv)) (Itv.entire)),
    (2008, eqB (Fmt.fmaI binary64 (⟨(f 1 0), (f 5 0)⟩ : Itv) (⟨(f 1 0), .pinf⟩ : Itv) (Itv.entire : Itv)) (Itv.entire)),
    (2009, eqB (Fmt.fmaI binary64 (⟨(f 1 0), (f 5 0)⟩ : Itv) (Itv.entire : Itv) (Itv.entire : Itv)) (Itv.entire)),
    (2011, eqB (Fmt.fmaI binary64 (⟨(f (-1) (0)), (f 5 0)⟩ : Itv) (⟨(f 0 0), (f 0 0)⟩ : Itv) (Itv.entire : Itv)) (Itv.entire)),
    (2012, eqB (Fmt.fmaI binary64 (⟨(f (-1) (0)), (f 5 0)⟩ : Itv) (⟨.nzero, .nzero⟩ : Itv) (Itv.entire : Itv)) (Itv.entire)),
    (2013, eqB (Fmt.fmaI binary64 (⟨(f (-1) (0)), (f 5 0)⟩ : Itv) (⟨(f (-5) (0)), (f (-1) (0))⟩ : Itv) (Itv.entire : Itv)) (Itv.entire)),
    (2015, eqB (Fmt.fmaI binary64 (⟨(f (-1) (0)), (f 5 0)⟩ : Itv) (⟨(f (-5) (0)), (f 3 0)⟩ : Itv) (Itv.entire : Itv)) (Itv.entire)),
    (2016, eqB (Fmt.fmaI binary64 (⟨(f (-10) (0)), (f 2 0)⟩ : Itv) (⟨(f (-5) (0)), (f 3 0)⟩ : Itv) (Itv.entire : Itv)) (Itv.entire)),
    (2017, eqB (Fmt.fmaI binary64 (⟨(f (-1) (0)), (f 5 0)⟩ : Itv) (⟨(f (-1) (0)), (f 10 0)⟩ : Itv) (Itv.entire : Itv)) (Itv.entire)),
    (2018, eqB (Fmt.fmaI binary64 (⟨(f (-2) (0)), (f 2 0)⟩ : Itv) (⟨(f (-5) (0)), (f 3 0)⟩ : Itv) (Itv.entire : Itv)) (Itv.entire)),
    (2020, eqB (Fmt.fmaI binary64 (⟨(f (-1) (0)), (f 5 0)⟩ : Itv) (⟨(f 1 0), (f 3 0)⟩ : Itv) (Itv.entire : Itv)) (Itv.entire)),
    (2021, eqB (Fmt.fmaI binary64 (⟨(f (-1) (0)), (f 5 0)⟩ : Itv) (⟨.ninf, (f (-1) (0))⟩ : Itv) (Itv.entire : Itv)) (Itv.entire)),
    (2022, eqB (Fmt.fmaI binary64 (⟨(f (-1) (0)), (f 5 0)⟩ : Itv) (⟨.ninf, (f 3 0)⟩ : Itv) (Itv.entire : Itv)) (Itv.entire)),
    (2023, eqB (Fmt.fmaI binary64 (⟨(f (-1) (0)), (f 5 0)⟩ : Itv) (⟨(f (-5) (0)), .pinf⟩ : Itv) (Itv.entire : Itv)) (Itv.entire)),
    (2024, eqB (Fmt.fmaI binary64 (⟨(f (-1) (0)), (f 5 0)⟩ : Itv) (⟨(f 1 0), .pinf⟩ : Itv) (Itv.entire : Itv)) (Itv.entire)),
    (2025, eqB (Fmt.fmaI binary64 (⟨(f (-1) (0)), (f 5 0)⟩ : Itv) (Itv.entire : Itv) (Itv.entire : Itv)) (Itv.entire)),
    (2027, eqB (Fmt.fmaI binary64 (⟨(f (-10) (0)), (f (-5) (0))⟩ : Itv) (⟨(f 0 0), (f 0 0)⟩ : Itv) (Itv.entire : Itv)) (Itv.entire)),
    (2028, eqB (Fmt.fmaI binary64 (⟨(f (-10) (0)), (f (-5) (0))⟩ : Itv) (⟨.nzero, .nzero⟩ : Itv) (Itv.entire : Itv)) (Itv.entire)),
    (2029, eqB (Fmt.fmaI binary64 (⟨(f (-10) (0)), (f (-5) (0))⟩ : Itv) (⟨(f (-5) (0)), (f (-1) (0))⟩ : Itv) (Itv.entire : Itv)) (Itv.entire)),
    (2030, eqB (Fmt.fmaI binary64 (⟨(f (-10) (0)), (f (-5) (0))⟩ : Itv) (⟨(f (-5) (0)), (f 3 0)⟩ : Itv) (Itv.entire : Itv)) (Itv.entire)),
    (2031, eqB (Fmt.fmaI binary64 (⟨(f (-10) (0)), (f (-5) (0))⟩ : Itv) (⟨(f 1 0), (f 3 0)⟩ : Itv) (Itv.entire : Itv)) (Itv.entire)),
    (2032, eqB (Fmt.fmaI binary64 (⟨(f (-10) (0)), (f (-5) (0))⟩ : Itv) (⟨.ninf, (f (-1) (0))⟩ : Itv) (Itv.entire : Itv)) (Itv.entire)),
    (2033, eqB (Fmt.fmaI binary64 (⟨(f (-10) (0)), (f (-5) (0))⟩ : Itv) (⟨.ninf, (f 3 0)⟩ : Itv) (Itv.entire : Itv)) (Itv.entire)),
    (2034, eqB (Fmt.fmaI binary64 (⟨(f (-10) (0)), (f (-5) (0))⟩ : Itv) (⟨(f (-5) (0)), .pinf⟩ : Itv) (Itv.entire : Itv)) (Itv.entire))] : List (ℕ × Bool)).all (·.2) = true := by
  decide +kernel

example : ([
    (2035, eqB (Fmt.fmaI binary64 (⟨(f (-10) (0)), (f (-5) (0))⟩ : Itv) (⟨(f 1 0), .pinf⟩ : Itv) (Itv.entire : Itv)) (Itv.entire)),
    (2036, eqB (Fmt.fmaI binary64 (⟨(f (-10) (0)), (f (-5) (0))⟩ : Itv) (Itv.entire : Itv) (Itv.entire : Itv)) (Itv.entire)),
    (2039, eqB (Fmt.fmaI binary64 (⟨(f (3602879701896397) (-55)), (f (1) (-1))⟩ : Itv) (⟨(f (-5) (0)), (f 3 0)⟩ : Itv) (⟨(f (-3602879701896397) (-55)), (f (3602879701896397) (-55))⟩ : Itv)) (⟨(f (-5854679515581645) (-51)), (f (3602879701896397) (-51))⟩)),
    (2040, eqB (Fmt.fmaI binary64 (⟨(f (-1) (-1)), (f (3602879701896397) (-54))⟩ : Itv) (⟨(f (-5) (0)), (f 3 0)⟩ : Itv) (⟨(f (-3602879701896397) (-55)), (f (3602879701896397) (-55))⟩ : Itv)) (⟨(f (-3602879701896397) (-51)), (f (5854679515581645) (-51))⟩)),
    (2041, eqB (Fmt.fmaI binary64 (⟨(f (-1) (-1)), (f (-3602879701896397) (-55))⟩ : Itv) (⟨(f 2 0), (f 3 0)⟩ : Itv) (⟨(f (-3602879701896397) (-55)), (f (3602879701896397) (-55))⟩ : Itv)) (⟨(f (-3602879701896397) (-51)), (f (-3602879701896397) (-55))⟩)),
    (2042, eqB (Fmt.fmaI binary64 (⟨(f (-1) (-1)), (f (-3602879701896397) (-55))⟩ : Itv) (⟨.ninf, (f 3 0)⟩ : Itv) (⟨(f (-3602879701896397) (-55)), (f (3602879701896397) (-55))⟩ : Itv)) (⟨(f (-3602879701896397) (-51)), .pinf⟩)),
    (2047, Itv.isEmpty (Fmt.fmaI binary64 (⟨(f 0 0), (f (-30) (0))⟩ : Itv) (⟨(f 0 0), (f 0 0)⟩ : Itv) (⟨(f (-2) (0)), .pinf⟩ : Itv) : Itv)),
    (2059, eqB (fmaMixed .float .double .double .double (⟨(f (3602879701896397) (-55)), (f (1) (-1))⟩ : Itv) (⟨(f (-5) (0)), (f 3 0)⟩ : Itv) (⟨(f (-3602879701896397) (-55)), (f (3602879701896397) (-55))⟩ : Itv)) (⟨(f (-10905191) (-22)), (f (13421773) (-23))⟩)),
    (2060, eqB (fmaMixed .double .float .double .double (⟨(f (-1) (-1)), (f (-13421773) (-27))⟩ : Itv) (⟨.ninf, (f 3 0)⟩ : Itv) (⟨(f (-3602879701896397) (-55)), (f (3602879701896397) (-55))⟩ : Itv)) (⟨(f (-3602879701896397) (-51)), .pinf⟩)),
    (2065, Itv.isEmpty (fmaMixed .float .double .double .double (⟨(f 0 0), (f (-30) (0))⟩ : Itv) (⟨(f 0 0), (f 0 0)⟩ : Itv) (⟨(f (-2) (0)), .pinf⟩ : Itv) : Itv)),
    (2077, eqD (Fmt.fmaD binary64 (⟨⟨(f (-1) (-1)), (f (-3602879701896397) (-55))⟩, .com⟩ : DItv) (⟨⟨.ninf, (f 3 0)⟩, .dac⟩ : DItv) (⟨⟨(f (-3602879701896397) (-55)), (f (3602879701896397) (-55))⟩, .com⟩ : DItv)) (⟨⟨(f (-3602879701896397) (-51)), .pinf⟩, .dac⟩)),
    (2078, eqD (Fmt.fmaD binary64 (⟨⟨(f 1 0), (f 2 0)⟩, .com⟩ : DItv) (⟨⟨(f 1 0), (f 9007199254740991 971)⟩, .com⟩ : DItv) (⟨⟨(f 0 0), (f 1 0)⟩, .com⟩ : DItv)) (⟨⟨(f 1 0), .pinf⟩, .dac⟩)),
    (2079, eqD (Fmt.fmaD binary64 (⟨⟨(f 1 0), (f 2 0)⟩, .com⟩ : DItv) (⟨⟨(f 1 0), (f 2 0)⟩, .com⟩ : DItv) (⟨⟨(f 2 0), (f 5 0)⟩, .com⟩ : DItv)) (⟨⟨(f 3 0), (f 9 0)⟩, .com⟩)),
    (2085, DItv.isNai (Fmt.fmaD binary64 (⟨⟨(f 0 0), (f (-30) (0))⟩, .trv⟩ : DItv) (⟨⟨(f 0 0), (f 0 0)⟩, .trv⟩ : DItv) (⟨⟨(f (-2) (0)), .pinf⟩, .trv⟩ : DItv) : DItv)),
    (2097, eqD (fmaMixedD .float .double .double .double (⟨⟨(f (3602879701896397) (-55)), (f (1) (-1))⟩, .com⟩ : DItv) (⟨⟨(f (-5) (0)), (f 3 0)⟩, .dac⟩ : DItv) (⟨⟨(f (-3602879701896397) (-55)), (f (3602879701896397) (-55))⟩, .defd⟩ : DItv)) (⟨⟨(f (-10905191) (-22)), (f (13421773) (-23))⟩, .defd⟩)),
    (2098, eqD (fmaMixedD .double .float .double .double (⟨⟨(f (-1) (-1)), (f (-13421773) (-27))⟩, .com⟩ : DItv) (⟨⟨.ninf, (f 3 0)⟩, .dac⟩ : DItv) (⟨⟨(f (-3602879701896397) (-55)), (f (3602879701896397) (-55))⟩, .com⟩ : DItv)) (⟨⟨(f (-3602879701896397) (-51)), .pinf⟩, .dac⟩)),
    (2103, DItv.isNai (fmaMixedD .float .double .double .double (⟨⟨(f 0 0), (f (-30) (0))⟩, .trv⟩ : DItv) (⟨⟨(f 0 0), (f 0 0)⟩, .trv⟩ : DItv) (⟨⟨(f (-2) (0)), .pinf⟩, .trv⟩ : DItv) : DItv)),
    (2118, Itv.isEmpty (Fmt.pownI binary64 (Itv.empty : Itv) (0) : Itv)),
    (2119, eqB (Fmt.pownI binary64 (Itv.entire : Itv) (0)) (⟨(f 1 0), (f 1 0)⟩)),
    (2120, eqB (Fmt.pownI binary64 (⟨(f 0 0), (f 0 0)⟩ : Itv) (0)) (⟨(f 1 0), (f 1 0)⟩)),
    (2121, eqB (Fmt.pownI binary64 (⟨.nzero, .nzero⟩ : Itv) (0)) (⟨(f 1 0), (f 1 0)⟩)),
    (2122, eqB (Fmt.pownI binary64 (⟨(f (7374644389819187) (-49)), (f (7374644389819187) (-49))⟩ : Itv) (0)) (⟨(f 1 0), (f 1 0)⟩)),
    (2123, eqB (Fmt.pownI binary64 (⟨(f (-2048155141936251) (-38)), (f (-2048155141936251) (-38))⟩ : Itv) (0)) (⟨(f 1 0), (f 1 0)⟩)),
    (2124, eqB (Fmt.pownI binary64 (⟨(f 9007199254740991 971), (f 9007199254740991 971)⟩ : Itv) (0)) (⟨(f 1 0), (f 1 0)⟩)),
    (2125, eqB (Fmt.pownI binary64 (⟨(f (-9007199254740991) (971)), (f (-9007199254740991) (971))⟩ : Itv) (0)) (⟨(f 1 0), (f 1 0)⟩)),
    (2126, eqB (Fmt.pownI binary64 (⟨(f 0 0), .pinf⟩ : Itv) (0)) (⟨(f 1 0), (f 1 0)⟩)),
    (2127, eqB (Fmt.pownI binary64 (⟨.nzero, .pinf⟩ : Itv) (0)) (⟨(f 1 0), (f 1 0)⟩)),
    (2128, eqB (Fmt.pownI binary64 (⟨.ninf, (f 0 0)⟩ : Itv) (0)) (⟨(f 1 0), (f 1 0)⟩)),
    (2129, eqB (Fmt.pownI binary64 (⟨.ninf, .nzero⟩ : Itv) (0)) (⟨(f 1 0), (f 1 0)⟩)),
    (2130, eqB (Fmt.pownI binary64 (⟨(f (-5705145934204109) (-44)), (f (5) (-1))⟩ : Itv) (0)) (⟨(f 1 0), (f 1 0)⟩)),
    (2132, Itv.isEmpty (Fmt.pownI binary64 (Itv.empty : Itv) (2) : Itv)),
    (2133, eqB (Fmt.pownI binary64 (Itv.entire : Itv) (2)) (⟨(f 0 0), .pinf⟩)),
    (2134, eqB (Fmt.pownI binary64 (⟨(f 0 0), (f 0 0)⟩ : Itv) (2)) (⟨(f 0 0), (f 0 0)⟩)),
    (2135, eqB (Fmt.pownI binary64 (⟨.nzero, .nzero⟩ : Itv) (2)) (⟨(f 0 0), (f 0 0)⟩)),
    (2136, eqB (Fmt.pownI binary64 (⟨(f (7374644389819187) (-49)), (f (7374644389819187) (-49))⟩ : Itv) (2)) (⟨(f (6037990094164459) (-45)), (f (1509497523541115) (-43))⟩)),
    (2137, eqB (Fmt.pownI binary64 (⟨(f (-2048155141936251) (-38)), (f (-2048155141936251) (-38))⟩ : Itv) (2)) (⟨(f (7451709445831341) (-27)), (f (3725854722915671) (-26))⟩)),
    (2138, eqB (Fmt.pownI binary64 (⟨(f 9007199254740991 971), (f 9007199254740991 971)⟩ : Itv) (2)) (⟨(f 9007199254740991 971), .pinf⟩)),
    (2139, eqB (Fmt.pownI binary64 (⟨(f (-9007199254740991) (971)), (f (-9007199254740991) (971))⟩ : Itv) (2)) (⟨(f 9007199254740991 971), .pinf⟩)),
    (2140, eqB (Fmt.pownI binary64 (⟨(f 0 0), .pinf⟩ : Itv) (2)) (⟨(f 0 0), .pinf⟩)),
    (2141, eqB (Fmt.pownI binary64 (⟨.nzero, .pinf⟩ : Itv) (2)) (⟨(f 0 0), .pinf⟩)),
    (2142, eqB (Fmt.pownI binary64 (⟨.ninf, (f 0 0)⟩ : Itv) (2)) (⟨(f 0 0), .pinf⟩)),
    (2143, eqB (Fmt.pownI binary64 (⟨.ninf, .nzero⟩ : Itv) (2)) (⟨(f 0 0), .pinf⟩)),
    (2144, eqB (Fmt.pownI binary64 (⟨(f (-5705145934204109) (-44)), (f (5) (-1))⟩ : Itv) (2)) (⟨(f 0 0), (f (3613630520434361) (-35))⟩)),
    (2145, eqB (Fmt.pownI binary64 (⟨(f (5764607523034235) (-59)), (f (1311673391471657) (-49))⟩ : Itv) (2)) (⟨(f (1844674407370955) (-64)), (f (3056199002128961) (-49))⟩)),
    (2146, eqB (Fmt.pownI binary64 (⟨(f (-4278419646001971) (-51)), (f (-5944751508129055) (-54))⟩ : Itv) (2)) (⟨(f (490441999420647) (-52)), (f (8128997327403745) (-51))⟩)),
    (2148, Itv.isEmpty (Fmt.pownI binary64 (Itv.empty : Itv) (8) : Itv)),
    (2149, eqB (Fmt.pownI binary64 (Itv.entire : Itv) (8)) (⟨(f 0 0), .pinf⟩)),
    (2150, eqB (Fmt.pownI binary64 (⟨(f 0 0), (f 0 0)⟩ : Itv) (8)) (⟨(f 0 0), (f 0 0)⟩)),
    (2151, eqB (Fmt.pownI binary64 (⟨.nzero, .nzero⟩ : Itv) (8)) (⟨(f 0 0), (f 0 0)⟩)),
    (2152, eqB (Fmt.pownI binary64 (⟨(f (7374644389819187) (-49)), (f (7374644389819187) (-49))⟩ : Itv) (8)) (⟨(f (7275456786617333) (-23)), (f (3637728393308667) (-22))⟩))] : List (ℕ × Bool)).all (·.2) = true := by
  decide +kernel

example : ([
    (2153, eqB (Fmt.pownI binary64 (⟨(f (-2048155141936251) (-38)), (f (-2048155141936251) (-38))⟩ : Itv) (8)) (⟨(f 8438870763038477 50), (f 4219435381519239 51)⟩)),
    (2154, eqB (Fmt.pownI binary64 (⟨(f 9007199254740991 971), (f 9007199254740991 971)⟩ : Itv) (8)) (⟨(f 9007199254740991 971), .pinf⟩)),
    (2155, eqB (Fmt.pownI binary64 (⟨(f (-9007199254740991) (971)), (f (-9007199254740991) (971))⟩ : Itv) (8)) (⟨(f 9007199254740991 971), .pinf⟩)),
    (2156, eqB (Fmt.pownI binary64 (⟨(f 0 0), .pinf⟩ : Itv) (8)) (⟨(f 0 0), .pinf⟩)),
    (2157, eqB (Fmt.pownI binary64 (⟨.nzero, .pinf⟩ : Itv) (8)) (⟨(f 0 0), .pinf⟩)),
    (2158, eqB (Fmt.pownI binary64 (⟨.ninf, (f 0 0)⟩ : Itv) (8)) (⟨(f 0 0), .pinf⟩)),
    (2159, eqB (Fmt.pownI binary64 (⟨.ninf, .nzero⟩ : Itv) (8)) (⟨(f 0 0), .pinf⟩)),
    (2160, eqB (Fmt.pownI binary64 (⟨(f (-5705145934204109) (-44)), (f (5) (-1))⟩ : Itv) (8)) (⟨(f 0 0), (f 466697707361877 18)⟩)),
    (2161, eqB (Fmt.pownI binary64 (⟨(f (5764607523034235) (-59)), (f (1311673391471657) (-49))⟩ : Itv) (8)) (⟨(f (8112963841460669) (-106)), (f (7640770965392973) (-43))⟩)),
    (2162, eqB (Fmt.pownI binary64 (⟨(f (-4278419646001971) (-51)), (f (-5944751508129055) (-54))⟩ : Itv) (8)) (⟨(f (5188731968750243) (-65)), (f (2987780007143395) (-44))⟩)),
    (2165, Itv.isEmpty (Fmt.pownI binary64 (Itv.empty : Itv) (1) : Itv)),
    (2166, eqB (Fmt.pownI binary64 (Itv.entire : Itv) (1)) (Itv.entire)),
    (2167, eqB (Fmt.pownI binary64 (⟨(f 0 0), (f 0 0)⟩ : Itv) (1)) (⟨(f 0 0), (f 0 0)⟩)),
    (2168, eqB (Fmt.pownI binary64 (⟨.nzero, .nzero⟩ : Itv) (1)) (⟨(f 0 0), (f 0 0)⟩)),
    (2169, eqB (Fmt.pownI binary64 (⟨(f (7374644389819187) (-49)), (f (7374644389819187) (-49))⟩ : Itv) (1)) (⟨(f (7374644389819187) (-49)), (f (7374644389819187) (-49))⟩)),
    (2170, eqB (Fmt.pownI binary64 (⟨(f (-2048155141936251) (-38)), (f (-2048155141936251) (-38))⟩ : Itv) (1)) (⟨(f (-2048155141936251) (-38)), (f (-2048155141936251) (-38))⟩)),
    (2171, eqB (Fmt.pownI binary64 (⟨(f 9007199254740991 971), (f 9007199254740991 971)⟩ : Itv) (1)) (⟨(f 9007199254740991 971), (f 9007199254740991 971)⟩)),
    (2172, eqB (Fmt.pownI binary64 (⟨(f (-9007199254740991) (971)), (f (-9007199254740991) (971))⟩ : Itv) (1)) (⟨(f (-9007199254740991) (971)), (f (-9007199254740991) (971))⟩)),
    (2173, eqB (Fmt.pownI binary64 (⟨(f 0 0), .pinf⟩ : Itv) (1)) (⟨(f 0 0), .pinf⟩)),
    (2174, eqB (Fmt.pownI binary64 (⟨.nzero, .pinf⟩ : Itv) (1)) (⟨(f 0 0), .pinf⟩)),
    (2175, eqB (Fmt.pownI binary64 (⟨.ninf, (f 0 0)⟩ : Itv) (1)) (⟨.ninf, (f 0 0)⟩)),
    (2176, eqB (Fmt.pownI binary64 (⟨.ninf, .nzero⟩ : Itv) (1)) (⟨.ninf, (f 0 0)⟩)),
    (2177, eqB (Fmt.pownI binary64 (⟨(f (-5705145934204109) (-44)), (f (5) (-1))⟩ : Itv) (1)) (⟨(f (-5705145934204109) (-44)), (f (5) (-1))⟩)),
    (2178, eqB (Fmt.pownI binary64 (⟨(f (5764607523034235) (-59)), (f (1311673391471657) (-49))⟩ : Itv) (1)) (⟨(f (5764607523034235) (-59)), (f (1311673391471657) (-49))⟩)),
    (2179, eqB (Fmt.pownI binary64 (⟨(f (-4278419646001971) (-51)), (f (-5944751508129055) (-54))⟩ : Itv) (1)) (⟨(f (-4278419646001971) (-51)), (f (-5944751508129055) (-54))⟩)),
    (2181, Itv.isEmpty (Fmt.pownI binary64 (Itv.empty : Itv) (3) : Itv)),
    (2182, eqB (Fmt.pownI binary64 (Itv.entire : Itv) (3)) (Itv.entire)),
    (2183, eqB (Fmt.pownI binary64 (⟨(f 0 0), (f 0 0)⟩ : Itv) (3)) (⟨(f 0 0), (f 0 0)⟩)),
    (2184, eqB (Fmt.pownI binary64 (⟨.nzero, .nzero⟩ : Itv) (3)) (⟨(f 0 0), (f 0 0)⟩)),
    (2185, eqB (Fmt.pownI binary64 (⟨(f (7374644389819187) (-49)), (f (7374644389819187) (-49))⟩ : Itv) (3)) (⟨(f (2471802194798575) (-40)), (f (4943604389597151) (-41))⟩)),
    (2186, eqB (Fmt.pownI binary64 (⟨(f (-2048155141936251) (-38)), (f (-2048155141936251) (-38))⟩ : Itv) (3)) (⟨(f (-6777803659516477) (-14)), (f (-1694450914879119) (-12))⟩)),
    (2187, eqB (Fmt.pownI binary64 (⟨(f 9007199254740991 971), (f 9007199254740991 971)⟩ : Itv) (3)) (⟨(f 9007199254740991 971), .pinf⟩)),
    (2188, eqB (Fmt.pownI binary64 (⟨(f (-9007199254740991) (971)), (f (-9007199254740991) (971))⟩ : Itv) (3)) (⟨.ninf, (f (-9007199254740991) (971))⟩)),
    (2189, eqB (Fmt.pownI binary64 (⟨(f 0 0), .pinf⟩ : Itv) (3)) (⟨(f 0 0), .pinf⟩)),
    (2190, eqB (Fmt.pownI binary64 (⟨.nzero, .pinf⟩ : Itv) (3)) (⟨(f 0 0), .pinf⟩)),
    (2191, eqB (Fmt.pownI binary64 (⟨.ninf, (f 0 0)⟩ : Itv) (3)) (⟨.ninf, (f 0 0)⟩)),
    (2192, eqB (Fmt.pownI binary64 (⟨.ninf, .nzero⟩ : Itv) (3)) (⟨.ninf, (f 0 0)⟩)),
    (2193, eqB (Fmt.pownI binary64 (⟨(f (-5705145934204109) (-44)), (f (5) (-1))⟩ : Itv) (3)) (⟨(f (-572216981336359) (-24)), (f (125) (-3))⟩)),
    (2194, eqB (Fmt.pownI binary64 (⟨(f (5764607523034235) (-59)), (f (1311673391471657) (-49))⟩ : Itv) (3)) (⟨(f (4722366482869645) (-72)), (f (222529489842515) (-44))⟩)),
    (2195, eqB (Fmt.pownI binary64 (⟨(f (-4278419646001971) (-51)), (f (-5944751508129055) (-54))⟩ : Itv) (3)) (⟨(f (-7722547461033557) (-50)), (f (-5179067513882033) (-57))⟩)),
    (2197, Itv.isEmpty (Fmt.pownI binary64 (Itv.empty : Itv) (7) : Itv)),
    (2198, eqB (Fmt.pownI binary64 (Itv.entire : Itv) (7)) (Itv.entire)),
    (2199, eqB (Fmt.pownI binary64 (⟨(f 0 0), (f 0 0)⟩ : Itv) (7)) (⟨(f 0 0), (f 0 0)⟩)),
    (2200, eqB (Fmt.pownI binary64 (⟨.nzero, .nzero⟩ : Itv) (7)) (⟨(f 0 0), (f 0 0)⟩)),
    (2201, eqB (Fmt.pownI binary64 (⟨(f (7374644389819187) (-49)), (f (7374644389819187) (-49))⟩ : Itv) (7)) (⟨(f (8886054090524987) (-27)), (f (2221513522631247) (-25))⟩)),
    (2202, eqB (Fmt.pownI binary64 (⟨(f (-2048155141936251) (-38)), (f (-2048155141936251) (-38))⟩ : Itv) (7)) (⟨(f (-4638966849444697) (38)), (f (-579870856180587) (41))⟩)),
    (2203, eqB (Fmt.pownI binary64 (⟨(f 9007199254740991 971), (f 9007199254740991 971)⟩ : Itv) (7)) (⟨(f 9007199254740991 971), .pinf⟩)),
    (2204, eqB (Fmt.pownI binary64 (⟨(f (-9007199254740991) (971)), (f (-9007199254740991) (971))⟩ : Itv) (7)) (⟨.ninf, (f (-9007199254740991) (971))⟩)),
    (2205, eqB (Fmt.pownI binary64 (⟨(f 0 0), .pinf⟩ : Itv) (7)) (⟨(f 0 0), .pinf⟩)),
    (2206, eqB (Fmt.pownI binary64 (⟨.nzero, .pinf⟩ : Itv) (7)) (⟨(f 0 0), .pinf⟩))] : List (ℕ × Bool)).all (·.2) = true := by
  decide +kernel

example : ([
    (2207, eqB (Fmt.pownI binary64 (⟨.ninf, (f 0 0)⟩ : Itv) (7)) (⟨.ninf, (f 0 0)⟩)),
    (2208, eqB (Fmt.pownI binary64 (⟨.ninf, .nzero⟩ : Itv) (7)) (⟨.ninf, (f 0 0)⟩)),
    (2209, eqB (Fmt.pownI binary64 (⟨(f (-5705145934204109) (-44)), (f (5) (-1))⟩ : Itv) (7)) (⟨(f (-5894523001400703) (6)), (f (78125) (-7))⟩)),
    (2210, eqB (Fmt.pownI binary64 (⟨(f (5764607523034235) (-59)), (f (1311673391471657) (-49))⟩ : Itv) (7)) (⟨(f (6338253001141147) (-99)), (f (6558601687032595) (-44))⟩)),
    (2211, eqB (Fmt.pownI binary64 (⟨(f (-4278419646001971) (-51)), (f (-5944751508129055) (-54))⟩ : Itv) (7)) (⟨(f (-6290063172933463) (-46)), (f (-3930857552083517) (-63))⟩)),
    (2214, Itv.isEmpty (Fmt.pownI binary64 (Itv.empty : Itv) (-2) : Itv)),
    (2215, eqB (Fmt.pownI binary64 (Itv.entire : Itv) (-2)) (⟨(f 0 0), .pinf⟩)),
    (2216, Itv.isEmpty (Fmt.pownI binary64 (⟨(f 0 0), (f 0 0)⟩ : Itv) (-2) : Itv)),
    (2217, Itv.isEmpty (Fmt.pownI binary64 (⟨.nzero, .nzero⟩ : Itv) (-2) : Itv)),
    (2218, eqB (Fmt.pownI binary64 (⟨(f (7374644389819187) (-49)), (f (7374644389819187) (-49))⟩ : Itv) (-2)) (⟨(f (839783159931565) (-57)), (f (6718265279452521) (-60))⟩)),
    (2219, eqB (Fmt.pownI binary64 (⟨(f (-2048155141936251) (-38)), (f (-2048155141936251) (-38))⟩ : Itv) (-2)) (⟨(f (1360923272108933) (-76)), (f (5443693088435733) (-78))⟩)),
    (2221, eqB (Fmt.pownI binary64 (⟨(f 9007199254740991 971), (f 9007199254740991 971)⟩ : Itv) (-2)) (⟨(f 0 0), (f (1) (-1074))⟩)),
    (2223, eqB (Fmt.pownI binary64 (⟨(f (-9007199254740991) (971)), (f (-9007199254740991) (971))⟩ : Itv) (-2)) (⟨(f 0 0), (f (1) (-1074))⟩)),
    (2224, eqB (Fmt.pownI binary64 (⟨(f 0 0), .pinf⟩ : Itv) (-2)) (⟨(f 0 0), .pinf⟩)),
    (2225, eqB (Fmt.pownI binary64 (⟨.nzero, .pinf⟩ : Itv) (-2)) (⟨(f 0 0), .pinf⟩)),
    (2226, eqB (Fmt.pownI binary64 (⟨.ninf, (f 0 0)⟩ : Itv) (-2)) (⟨(f 0 0), .pinf⟩)),
    (2227, eqB (Fmt.pownI binary64 (⟨.ninf, .nzero⟩ : Itv) (-2)) (⟨(f 0 0), .pinf⟩)),
    (2228, eqB (Fmt.pownI binary64 (⟨(f (-5705145934204109) (-44)), (f (5) (-1))⟩ : Itv) (-2)) (⟨(f (5612751356000201) (-69)), .pinf⟩)),
    (2229, eqB (Fmt.pownI binary64 (⟨(f (5764607523034235) (-59)), (f (1311673391471657) (-49))⟩ : Itv) (-2)) (⟨(f (6636481979584071) (-55)), (f 10000 0)⟩)),
    (2230, eqB (Fmt.pownI binary64 (⟨(f (-4278419646001971) (-51)), (f (-5944751508129055) (-54))⟩ : Itv) (-2)) (⟨(f (38985453838041) (-47)), (f (5169421059883489) (-49))⟩)),
    (2232, Itv.isEmpty (Fmt.pownI binary64 (Itv.empty : Itv) (-8) : Itv)),
    (2233, eqB (Fmt.pownI binary64 (Itv.entire : Itv) (-8)) (⟨(f 0 0), .pinf⟩)),
    (2234, Itv.isEmpty (Fmt.pownI binary64 (⟨(f 0 0), (f 0 0)⟩ : Itv) (-8) : Itv)),
    (2235, Itv.isEmpty (Fmt.pownI binary64 (⟨.nzero, .nzero⟩ : Itv) (-8) : Itv)),
    (2236, eqB (Fmt.pownI binary64 (⟨(f (7374644389819187) (-49)), (f (7374644389819187) (-49))⟩ : Itv) (-8)) (⟨(f (5575570084055661) (-82)), (f (2787785042027831) (-81))⟩)),
    (2237, eqB (Fmt.pownI binary64 (⟨(f (-2048155141936251) (-38)), (f (-2048155141936251) (-38))⟩ : Itv) (-8)) (⟨(f (1201725335840363) (-153)), (f (4806901343361453) (-155))⟩)),
    (2239, eqB (Fmt.pownI binary64 (⟨(f 9007199254740991 971), (f 9007199254740991 971)⟩ : Itv) (-8)) (⟨(f 0 0), (f (1) (-1074))⟩)),
    (2241, eqB (Fmt.pownI binary64 (⟨(f (-9007199254740991) (971)), (f (-9007199254740991) (971))⟩ : Itv) (-8)) (⟨(f 0 0), (f (1) (-1074))⟩)),
    (2242, eqB (Fmt.pownI binary64 (⟨(f 0 0), .pinf⟩ : Itv) (-8)) (⟨(f 0 0), .pinf⟩)),
    (2243, eqB (Fmt.pownI binary64 (⟨.nzero, .pinf⟩ : Itv) (-8)) (⟨(f 0 0), .pinf⟩)),
    (2244, eqB (Fmt.pownI binary64 (⟨.ninf, (f 0 0)⟩ : Itv) (-8)) (⟨(f 0 0), .pinf⟩)),
    (2245, eqB (Fmt.pownI binary64 (⟨.ninf, .nzero⟩ : Itv) (-8)) (⟨(f 0 0), .pinf⟩)),
    (2246, eqB (Fmt.pownI binary64 (⟨(f (-5705145934204109) (-44)), (f (5) (-1))⟩ : Itv) (-8)) (⟨(f (1358106736150403) (-117)), .pinf⟩)),
    (2247, eqB (Fmt.pownI binary64 (⟨(f (5764607523034235) (-59)), (f (1311673391471657) (-49))⟩ : Itv) (-8)) (⟨(f (1327248892521183) (-60)), (f 152587890625 16)⟩)),
    (2248, eqB (Fmt.pownI binary64 (⟨(f (-4278419646001971) (-51)), (f (-5944751508129055) (-54))⟩ : Itv) (-8)) (⟨(f (6788454824370957) (-60)), (f (1954466883797901) (-38))⟩)),
    (2251, Itv.isEmpty (Fmt.pownI binary64 (Itv.empty : Itv) (-1) : Itv)),
    (2252, eqB (Fmt.pownI binary64 (Itv.entire : Itv) (-1)) (Itv.entire)),
    (2253, Itv.isEmpty (Fmt.pownI binary64 (⟨(f 0 0), (f 0 0)⟩ : Itv) (-1) : Itv)),
    (2254, Itv.isEmpty (Fmt.pownI binary64 (⟨.nzero, .nzero⟩ : Itv) (-1) : Itv)),
    (2255, eqB (Fmt.pownI binary64 (⟨(f (7374644389819187) (-49)), (f (7374644389819187) (-49))⟩ : Itv) (-1)) (⟨(f (2750289848775875) (-55)), (f (5500579697551751) (-56))⟩)),
    (2256, eqB (Fmt.pownI binary64 (⟨(f (-2048155141936251) (-38)), (f (-2048155141936251) (-38))⟩ : Itv) (-1)) (⟨(f (-4951385075370175) (-65)), (f (-2475692537685087) (-64))⟩)),
    (2258, eqB (Fmt.pownI binary64 (⟨(f 9007199254740991 971), (f 9007199254740991 971)⟩ : Itv) (-1)) (⟨(f (1) (-1024)), (f (1125899906842625) (-1074))⟩)),
    (2260, eqB (Fmt.pownI binary64 (⟨(f (-9007199254740991) (971)), (f (-9007199254740991) (971))⟩ : Itv) (-1)) (⟨(f (-1125899906842625) (-1074)), (f (-1) (-1024))⟩)),
    (2261, eqB (Fmt.pownI binary64 (⟨(f 0 0), .pinf⟩ : Itv) (-1)) (⟨(f 0 0), .pinf⟩)),
    (2262, eqB (Fmt.pownI binary64 (⟨.nzero, .pinf⟩ : Itv) (-1)) (⟨(f 0 0), .pinf⟩)),
    (2263, eqB (Fmt.pownI binary64 (⟨.ninf, (f 0 0)⟩ : Itv) (-1)) (⟨.ninf, (f 0 0)⟩)),
    (2264, eqB (Fmt.pownI binary64 (⟨.ninf, .nzero⟩ : Itv) (-1)) (⟨.ninf, (f 0 0)⟩)),
    (2265, eqB (Fmt.pownI binary64 (⟨(f (-5705145934204109) (-44)), (f (5) (-1))⟩ : Itv) (-1)) (Itv.entire)),
    (2266, eqB (Fmt.pownI binary64 (⟨(f (5764607523034235) (-59)), (f (1311673391471657) (-49))⟩ : Itv) (-1)) (⟨(f (7731501506215443) (-54)), (f 100 0)⟩)),
    (2267, eqB (Fmt.pownI binary64 (⟨(f (-4278419646001971) (-51)), (f (-5944751508129055) (-54))⟩ : Itv) (-1)) (⟨(f (-3411817899523103) (-50)), (f (-4740631186705785) (-53))⟩))] : List (ℕ × Bool)).all (·.2) = true := by
  decide +kernel

example : ([
    (2269, Itv.isEmpty (Fmt.pownI binary64 (Itv.empty : Itv) (-3) : Itv)),
    (2270, eqB (Fmt.pownI binary64 (Itv.entire : Itv) (-3)) (Itv.entire)),
    (2271, Itv.isEmpty (Fmt.pownI binary64 (⟨(f 0 0), (f 0 0)⟩ : Itv) (-3) : Itv)),
    (2272, Itv.isEmpty (Fmt.pownI binary64 (⟨.nzero, .nzero⟩ : Itv) (-3) : Itv)),
    (2273, eqB (Fmt.pownI binary64 (⟨(f (7374644389819187) (-49)), (f (7374644389819187) (-49))⟩ : Itv) (-3)) (⟨(f (8205514845132849) (-64)), (f (4102757422566425) (-63))⟩)),
    (2274, eqB (Fmt.pownI binary64 (⟨(f (-2048155141936251) (-38)), (f (-2048155141936251) (-38))⟩ : Itv) (-3)) (⟨(f (-5984950471432985) (-91)), (f (-748118808929123) (-88))⟩)),
    (2276, eqB (Fmt.pownI binary64 (⟨(f 9007199254740991 971), (f 9007199254740991 971)⟩ : Itv) (-3)) (⟨(f 0 0), (f (1) (-1074))⟩)),
    (2278, eqB (Fmt.pownI binary64 (⟨(f (-9007199254740991) (971)), (f (-9007199254740991) (971))⟩ : Itv) (-3)) (⟨(f (-1) (-1074)), .nzero⟩)),
    (2279, eqB (Fmt.pownI binary64 (⟨(f 0 0), .pinf⟩ : Itv) (-3)) (⟨(f 0 0), .pinf⟩)),
    (2280, eqB (Fmt.pownI binary64 (⟨.nzero, .pinf⟩ : Itv) (-3)) (⟨(f 0 0), .pinf⟩)),
    (2281, eqB (Fmt.pownI binary64 (⟨.ninf, (f 0 0)⟩ : Itv) (-3)) (⟨.ninf, (f 0 0)⟩)),
    (2282, eqB (Fmt.pownI binary64 (⟨.ninf, .nzero⟩ : Itv) (-3)) (⟨.ninf, (f 0 0)⟩)),
    (2283, eqB (Fmt.pownI binary64 (⟨(f (-5705145934204109) (-44)), (f (5) (-1))⟩ : Itv) (-3)) (Itv.entire)),
    (2284, eqB (Fmt.pownI binary64 (⟨(f (5764607523034235) (-59)), (f (1311673391471657) (-49))⟩ : Itv) (-3)) (⟨(f (5696551055436971) (-56)), (f 1000000 0)⟩)),
    (2285, eqB (Fmt.pownI binary64 (⟨(f (-4278419646001971) (-51)), (f (-5944751508129055) (-54))⟩ : Itv) (-3)) (⟨(f (-1958114037834655) (-46)), (f (-1313194234544539) (-53))⟩)),
    (2287, Itv.isEmpty (Fmt.pownI binary64 (Itv.empty : Itv) (-7) : Itv)),
    (2288, eqB (Fmt.pownI binary64 (Itv.entire : Itv) (-7)) (Itv.entire)),
    (2289, Itv.isEmpty (Fmt.pownI binary64 (⟨(f 0 0), (f 0 0)⟩ : Itv) (-7) : Itv)),
    (2290, Itv.isEmpty (Fmt.pownI binary64 (⟨.nzero, .nzero⟩ : Itv) (-7) : Itv)),
    (2291, eqB (Fmt.pownI binary64 (⟨(f (7374644389819187) (-49)), (f (7374644389819187) (-49))⟩ : Itv) (-7)) (⟨(f (1141249501580143) (-76)), (f (4564998006320573) (-78))⟩)),
    (2292, eqB (Fmt.pownI binary64 (⟨(f (-2048155141936251) (-38)), (f (-2048155141936251) (-38))⟩ : Itv) (-7)) (⟨(f (-8744364968281487) (-143)), (f (-4372182484140743) (-142))⟩)),
    (2294, eqB (Fmt.pownI binary64 (⟨(f 9007199254740991 971), (f 9007199254740991 971)⟩ : Itv) (-7)) (⟨(f 0 0), (f (1) (-1074))⟩)),
    (2296, eqB (Fmt.pownI binary64 (⟨(f (-9007199254740991) (971)), (f (-9007199254740991) (971))⟩ : Itv) (-7)) (⟨(f (-1) (-1074)), .nzero⟩)),
    (2297, eqB (Fmt.pownI binary64 (⟨(f 0 0), .pinf⟩ : Itv) (-7)) (⟨(f 0 0), .pinf⟩)),
    (2298, eqB (Fmt.pownI binary64 (⟨.nzero, .pinf⟩ : Itv) (-7)) (⟨(f 0 0), .pinf⟩)),
    (2299, eqB (Fmt.pownI binary64 (⟨.ninf, (f 0 0)⟩ : Itv) (-7)) (⟨.ninf, (f 0 0)⟩)),
    (2300, eqB (Fmt.pownI binary64 (⟨.ninf, .nzero⟩ : Itv) (-7)) (⟨.ninf, (f 0 0)⟩)),
    (2301, eqB (Fmt.pownI binary64 (⟨(f (-5705145934204109) (-44)), (f (5) (-1))⟩ : Itv) (-7)) (Itv.entire)),
    (2302, eqB (Fmt.pownI binary64 (⟨(f (5764607523034235) (-59)), (f (1311673391471657) (-49))⟩ : Itv) (-7)) (⟨(f (6184979839148713) (-61)), (f 6103515625 14)⟩)),
    (2303, eqB (Fmt.pownI binary64 (⟨(f (-4278419646001971) (-51)), (f (-5944751508129055) (-54))⟩ : Itv) (-7)) (⟨(f (-5159792573226459) (-41)), (f (-6449032083152409) (-59))⟩)),
    (2310, Itv.isEmpty (Fmt.pownI binary64 (⟨(f 1 0), (f (-9007199254740991) (971))⟩ : Itv) (5) : Itv)),
    (2322, eqB (if !(⟨(f (6868173) (-19)), (f (6868173) (-19))⟩ : Itv).isValid then Itv.empty else Fmt.convertHull binary64 (Fmt.pownI binary64 (Fmt.convertHull binary64 (⟨(f (6868173) (-19)), (f (6868173) (-19))⟩ : Itv)) (0))) (⟨(f 1 0), (f 1 0)⟩)),
    (2323, eqB (if !(⟨(f (5764607523034235) (-59)), (f (1311673391471657) (-49))⟩ : Itv).isValid then Itv.empty else Fmt.convertHull binary32 (Fmt.pownI binary64 (Fmt.convertHull binary64 (⟨(f (5764607523034235) (-59)), (f (1311673391471657) (-49))⟩ : Itv)) (2))) (⟨(f (13743895) (-37)), (f (11385229) (-21))⟩)),
    (2324, eqB (if !(⟨(f (5764607523034235) (-59)), (f (1311673391471657) (-49))⟩ : Itv).isValid then Itv.empty else Fmt.convertHull binary32 (Fmt.pownI binary64 (Fmt.convertHull binary64 (⟨(f (5764607523034235) (-59)), (f (1311673391471657) (-49))⟩ : Itv)) (3))) (⟨(f (8796093) (-43)), (f (828987) (-16))⟩)),
    (2325, eqB (if !(⟨(f (5764607523034235) (-59)), (f (1311673391471657) (-49))⟩ : Itv).isValid then Itv.empty else Fmt.convertHull binary32 (Fmt.pownI binary64 (Fmt.convertHull binary64 (⟨(f (5764607523034235) (-59)), (f (1311673391471657) (-49))⟩ : Itv)) (-8))) (⟨(f (4944387) (-32)), (f 4656613 31)⟩)),
    (2326, eqB (if !(⟨(f (5368709) (-29)), (f (1221591) (-19))⟩ : Itv).isValid then Itv.empty else Fmt.convertHull binary64 (Fmt.pownI binary64 (Fmt.convertHull binary64 (⟨(f (5368709) (-29)), (f (1221591) (-19))⟩ : Itv)) (-7))) (⟨(f (3092490628401831) (-60)), (f (3200000500679061) (-5))⟩)),
    (2331, Itv.isEmpty (if !(⟨(f 1 0), (f (-9007199254740991) (971))⟩ : Itv).isValid then Itv.empty else Fmt.convertHull binary32 (Fmt.pownI binary64 (Fmt.convertHull binary64 (⟨(f 1 0), (f (-9007199254740991) (971))⟩ : Itv)) (5)) : Itv)),
    (2343, eqD (Fmt.pownD binary64 (⟨⟨(f (-5) (0)), (f 10 0)⟩, .com⟩ : DItv) (0)) (⟨⟨(f 1 0), (f 1 0)⟩, .com⟩)),
    (2344, eqD (Fmt.pownD binary64 (⟨⟨.ninf, (f 15 0)⟩, .dac⟩ : DItv) (0)) (⟨⟨(f 1 0), (f 1 0)⟩, .dac⟩)),
    (2345, eqD (Fmt.pownD binary64 (⟨⟨(f (-3) (0)), (f 5 0)⟩, .defd⟩ : DItv) (2)) (⟨⟨(f 0 0), (f 25 0)⟩, .defd⟩)),
    (2346, eqD (Fmt.pownD binary64 (⟨⟨(f (-9007199254740991) (971)), (f 2 0)⟩, .com⟩ : DItv) (2)) (⟨⟨(f 0 0), .pinf⟩, .dac⟩)),
    (2347, eqD (Fmt.pownD binary64 (⟨⟨(f (-3) (0)), (f 5 0)⟩, .dac⟩ : DItv) (3)) (⟨⟨(f (-27) (0)), (f 125 0)⟩, .dac⟩)),
    (2348, eqD (Fmt.pownD binary64 (⟨⟨(f (-9007199254740991) (971)), (f 2 0)⟩, .com⟩ : DItv) (3)) (⟨⟨.ninf, (f 8 0)⟩, .dac⟩)),
    (2349, eqD (Fmt.pownD binary64 (⟨⟨(f 3 0), (f 5 0)⟩, .com⟩ : DItv) (-2)) (⟨⟨(f (2882303761517117) (-56)), (f (8006399337547549) (-56))⟩, .com⟩)),
    (2350, eqD (Fmt.pownD binary64 (⟨⟨(f (-5) (0)), (f (-3) (0))⟩, .defd⟩ : DItv) (-2)) (⟨⟨(f (2882303761517117) (-56)), (f (8006399337547549) (-56))⟩, .defd⟩)),
    (2351, eqD (Fmt.pownD binary64 (⟨⟨(f (-5) (0)), (f 3 0)⟩, .com⟩ : DItv) (-2)) (⟨⟨(f (2882303761517117) (-56)), .pinf⟩, .trv⟩)),
    (2352, eqD (Fmt.pownD binary64 (⟨⟨(f 3 0), (f 5 0)⟩, .dac⟩ : DItv) (-3)) (⟨⟨(f (4611686018427387) (-59)), (f (5337599558365033) (-57))⟩, .dac⟩)),
    (2353, eqD (Fmt.pownD binary64 (⟨⟨(f (-3) (0)), (f 5 0)⟩, .com⟩ : DItv) (-3)) (⟨⟨.ninf, .pinf⟩, .trv⟩)),
    (2359, DItv.isNai (Fmt.pownD binary64 (⟨⟨(f (-5) (0)), (f 10 0)⟩, .ill⟩ : DItv) (0) : DItv)),
    (2372, eqD (if !(⟨⟨(f 3 0), (f 5 0)⟩, .com⟩ : DItv).isValid || (⟨⟨(f 3 0), (f 5 0)⟩, .com⟩ : DItv).isNai then DItv.nai else Fmt.convertHullD binary32 (Fmt.pownD binary64 (Fmt.convertHullD binary64 (⟨⟨(f 3 0), (f 5 0)⟩, .com⟩ : DItv)) (-2))) (⟨⟨(f (5368709) (-27)), (f (14913081) (-27))⟩, .com⟩))] : List (ℕ × Bool)).all (·.2) = true := by
  decide +kernel

example : ([
    (2373, eqD (if !(⟨⟨(f (-5) (0)), (f 3 0)⟩, .com⟩ : DItv).isValid || (⟨⟨(f (-5) (0)), (f 3 0)⟩, .com⟩ : DItv).isNai then DItv.nai else Fmt.convertHullD binary64 (Fmt.pownD binary64 (Fmt.convertHullD binary64 (⟨⟨(f (-5) (0)), (f 3 0)⟩, .com⟩ : DItv)) (-2))) (⟨⟨(f (2882303761517117) (-56)), .pinf⟩, .trv⟩)),
    (2374, eqD (if !(⟨⟨(f 3 0), (f 5 0)⟩, .dac⟩ : DItv).isValid || (⟨⟨(f 3 0), (f 5 0)⟩, .dac⟩ : DItv).isNai then DItv.nai else Fmt.convertHullD binary32 (Fmt.pownD binary64 (Fmt.convertHullD binary64 (⟨⟨(f 3 0), (f 5 0)⟩, .dac⟩ : DItv)) (-3))) (⟨⟨(f (4294967) (-29)), (f (4971027) (-27))⟩, .dac⟩)),
    (2379, DItv.isNai (if !(⟨⟨(f (-5) (0)), (f 10 0)⟩, .ill⟩ : DItv).isValid || (⟨⟨(f (-5) (0)), (f 10 0)⟩, .ill⟩ : DItv).isNai then DItv.nai else Fmt.convertHullD binary32 (Fmt.pownD binary64 (Fmt.convertHullD binary64 (⟨⟨(f (-5) (0)), (f 10 0)⟩, .ill⟩ : DItv)) (0)) : DItv)),
    (6452, Itv.isEmpty (Fmt.signI (Itv.empty : Itv) : Itv)),
    (6453, eqB (Fmt.signI (⟨(f 1 0), (f 2 0)⟩ : Itv)) (⟨(f 1 0), (f 1 0)⟩)),
    (6454, eqB (Fmt.signI (⟨(f (-1) (0)), (f 2 0)⟩ : Itv)) (⟨(f (-1) (0)), (f 1 0)⟩)),
    (6455, eqB (Fmt.signI (⟨(f (-1) (0)), (f 0 0)⟩ : Itv)) (⟨(f (-1) (0)), (f 0 0)⟩)),
    (6456, eqB (Fmt.signI (⟨(f 0 0), (f 2 0)⟩ : Itv)) (⟨(f 0 0), (f 1 0)⟩)),
    (6457, eqB (Fmt.signI (⟨.nzero, (f 2 0)⟩ : Itv)) (⟨(f 0 0), (f 1 0)⟩)),
    (6458, eqB (Fmt.signI (⟨(f (-5) (0)), (f (-2) (0))⟩ : Itv)) (⟨(f (-1) (0)), (f (-1) (0))⟩)),
    (6459, eqB (Fmt.signI (⟨(f 0 0), (f 0 0)⟩ : Itv)) (⟨(f 0 0), (f 0 0)⟩)),
    (6460, eqB (Fmt.signI (⟨.nzero, .nzero⟩ : Itv)) (⟨(f 0 0), (f 0 0)⟩)),
    (6461, eqB (Fmt.signI (⟨.nzero, (f 0 0)⟩ : Itv)) (⟨(f 0 0), (f 0 0)⟩)),
    (6462, eqB (Fmt.signI (Itv.entire : Itv)) (⟨(f (-1) (0)), (f 1 0)⟩)),
    (6465, Itv.isEmpty (Fmt.signI (⟨(f 1 0), (f (-9007199254740991) (971))⟩ : Itv) : Itv)),
    (6477, eqB (if !(⟨(f 1 0), (f 2 0)⟩ : Itv).isValid then Itv.empty else Fmt.convertHull binary32 (Fmt.signI (Fmt.convertHull binary64 (⟨(f 1 0), (f 2 0)⟩ : Itv)))) (⟨(f 1 0), (f 1 0)⟩)),
    (6478, eqB (if !(⟨(f (-1) (0)), (f 2 0)⟩ : Itv).isValid then Itv.empty else Fmt.convertHull binary32 (Fmt.signI (Fmt.convertHull binary64 (⟨(f (-1) (0)), (f 2 0)⟩ : Itv)))) (⟨(f (-1) (0)), (f 1 0)⟩)),
    (6479, eqB (if !(⟨(f 0 0), (f 2 0)⟩ : Itv).isValid then Itv.empty else Fmt.convertHull binary64 (Fmt.signI (Fmt.convertHull binary64 (⟨(f 0 0), (f 2 0)⟩ : Itv)))) (⟨(f 0 0), (f 1 0)⟩)),
    (6485, Itv.isEmpty (if !(⟨(f 1 0), (f (-9007199254740991) (971))⟩ : Itv).isValid then Itv.empty else Fmt.convertHull binary32 (Fmt.signI (Fmt.convertHull binary64 (⟨(f 1 0), (f (-9007199254740991) (971))⟩ : Itv))) : Itv)),
    (6497, eqD (Fmt.signD (⟨⟨(f 1 0), (f 2 0)⟩, .com⟩ : DItv)) (⟨⟨(f 1 0), (f 1 0)⟩, .com⟩)),
    (6498, eqD (Fmt.signD (⟨⟨(f (-1) (0)), (f 2 0)⟩, .com⟩ : DItv)) (⟨⟨(f (-1) (0)), (f 1 0)⟩, .defd⟩)),
    (6499, eqD (Fmt.signD (⟨⟨(f (-1) (0)), (f 0 0)⟩, .com⟩ : DItv)) (⟨⟨(f (-1) (0)), (f 0 0)⟩, .defd⟩)),
    (6500, eqD (Fmt.signD (⟨⟨(f 0 0), (f 2 0)⟩, .com⟩ : DItv)) (⟨⟨(f 0 0), (f 1 0)⟩, .defd⟩)),
    (6501, eqD (Fmt.signD (⟨⟨.nzero, (f 2 0)⟩, .defd⟩ : DItv)) (⟨⟨(f 0 0), (f 1 0)⟩, .defd⟩)),
    (6502, eqD (Fmt.signD (⟨⟨(f (-5) (0)), (f (-2) (0))⟩, .trv⟩ : DItv)) (⟨⟨(f (-1) (0)), (f (-1) (0))⟩, .trv⟩)),
    (6503, eqD (Fmt.signD (⟨⟨(f 0 0), (f 0 0)⟩, .dac⟩ : DItv)) (⟨⟨(f 0 0), (f 0 0)⟩, .dac⟩)),
    (6508, DItv.isNai (Fmt.signD (⟨⟨(f 1 0), (f (-9007199254740991) (971))⟩, .trv⟩ : DItv) : DItv)),
    (6520, eqD (if !(⟨⟨(f 1 0), (f 2 0)⟩, .com⟩ : DItv).isValid || (⟨⟨(f 1 0), (f 2 0)⟩, .com⟩ : DItv).isNai then DItv.nai else Fmt.convertHullD binary32 (Fmt.signD (Fmt.convertHullD binary64 (⟨⟨(f 1 0), (f 2 0)⟩, .com⟩ : DItv)))) (⟨⟨(f 1 0), (f 1 0)⟩, .com⟩)),
    (6521, eqD (if !(⟨⟨(f (-1) (0)), (f 2 0)⟩, .com⟩ : DItv).isValid || (⟨⟨(f (-1) (0)), (f 2 0)⟩, .com⟩ : DItv).isNai then DItv.nai else Fmt.convertHullD binary32 (Fmt.signD (Fmt.convertHullD binary64 (⟨⟨(f (-1) (0)), (f 2 0)⟩, .com⟩ : DItv)))) (⟨⟨(f (-1) (0)), (f 1 0)⟩, .defd⟩)),
    (6522, eqD (if !(⟨⟨(f 0 0), (f 2 0)⟩, .trv⟩ : DItv).isValid || (⟨⟨(f 0 0), (f 2 0)⟩, .trv⟩ : DItv).isNai then DItv.nai else Fmt.convertHullD binary64 (Fmt.signD (Fmt.convertHullD binary64 (⟨⟨(f 0 0), (f 2 0)⟩, .trv⟩ : DItv)))) (⟨⟨(f 0 0), (f 1 0)⟩, .trv⟩)),
    (6527, DItv.isNai (if !(⟨⟨(f 1 0), (f (-9007199254740991) (971))⟩, .trv⟩ : DItv).isValid || (⟨⟨(f 1 0), (f (-9007199254740991) (971))⟩, .trv⟩ : DItv).isNai then DItv.nai else Fmt.convertHullD binary32 (Fmt.signD (Fmt.convertHullD binary64 (⟨⟨(f 1 0), (f (-9007199254740991) (971))⟩, .trv⟩ : DItv))) : DItv)),
    (6543, Itv.isEmpty (Fmt.ceilI (Itv.empty : Itv) : Itv)),
    (6544, eqB (Fmt.ceilI (Itv.entire : Itv)) (Itv.entire)),
    (6545, eqB (Fmt.ceilI (⟨(f (2476979795053773) (-51)), (f 2 0)⟩ : Itv)) (⟨(f 2 0), (f 2 0)⟩)),
    (6546, eqB (Fmt.ceilI (⟨(f (-2476979795053773) (-51)), (f 2 0)⟩ : Itv)) (⟨(f (-1) (0)), (f 2 0)⟩)),
    (6547, eqB (Fmt.ceilI (⟨(f (-2476979795053773) (-51)), (f 0 0)⟩ : Itv)) (⟨(f (-1) (0)), (f 0 0)⟩)),
    (6548, eqB (Fmt.ceilI (⟨(f (-2476979795053773) (-51)), .nzero⟩ : Itv)) (⟨(f (-1) (0)), (f 0 0)⟩)),
    (6549, eqB (Fmt.ceilI (⟨(f (-2476979795053773) (-51)), (f (-3602879701896397) (-53))⟩ : Itv)) (⟨(f (-1) (0)), (f 0 0)⟩)),
    (6550, eqB (Fmt.ceilI (⟨(f (-4278419646001971) (-51)), (f (2476979795053773) (-50))⟩ : Itv)) (⟨(f (-1) (0)), (f 3 0)⟩)),
    (6551, eqB (Fmt.ceilI (⟨(f (-1) (0)), (f (2476979795053773) (-50))⟩ : Itv)) (⟨(f (-1) (0)), (f 3 0)⟩)),
    (6552, eqB (Fmt.ceilI (⟨(f 0 0), (f (2476979795053773) (-50))⟩ : Itv)) (⟨(f 0 0), (f 3 0)⟩)),
    (6553, eqB (Fmt.ceilI (⟨.nzero, (f (2476979795053773) (-50))⟩ : Itv)) (⟨(f 0 0), (f 3 0)⟩)),
    (6554, eqB (Fmt.ceilI (⟨(f (-3) (-1)), .pinf⟩ : Itv)) (⟨(f (-1) (0)), .pinf⟩)),
    (6555, eqB (Fmt.ceilI (⟨(f 9007199254740991 971), .pinf⟩ : Itv)) (⟨(f 9007199254740991 971), .pinf⟩)),
    (6556, eqB (Fmt.ceilI (⟨.ninf, (f (2476979795053773) (-50))⟩ : Itv)) (⟨.ninf, (f 3 0)⟩)),
    (6557, eqB (Fmt.ceilI (⟨.ninf, (f (-9007199254740991) (971))⟩ : Itv)) (⟨.ninf, (f (-9007199254740991) (971))⟩)),
    (6560, Itv.isEmpty (Fmt.ceilI (⟨(f 1 0), (f (-9007199254740991) (971))⟩ : Itv) : Itv)),
    (6572, eqB (if !(⟨.nzero, (f (9227469) (-22))⟩ : Itv).isValid then Itv.empty else Fmt.convertHull binary64 (Fmt.ceilI (Fmt.convertHull binary64 (⟨.nzero, (f (9227469) (-22))⟩ : Itv)))) (⟨(f 0 0), (f 3 0)⟩)),
    (6573, eqB (if !(⟨(f (-3) (-1)), .pinf⟩ : Itv).isValid then Itv.empty else Fmt.convertHull binary32 (Fmt.ceilI (Fmt.convertHull binary64 (⟨(f (-3) (-1)), .pinf⟩ : Itv)))) (⟨(f (-1) (0)), .pinf⟩)),
    (6574, eqB (if !(⟨(f 9007199254740991 971), .pinf⟩ : Itv).isValid then Itv.empty else Fmt.convertHull binary32 (Fmt.ceilI (Fmt.convertHull binary64 (⟨(f 9007199254740991 971), .pinf⟩ : Itv)))) (⟨(f 16777215 104), .pinf⟩))] : List (ℕ × Bool)).all (·.2) = true := by
  decide +kernel

example : ([
    (6575, eqB (if !(⟨(f 9007199254740991 971), (f 9007199254740991 971)⟩ : Itv).isValid then Itv.empty else Fmt.convertHull binary32 (Fmt.ceilI (Fmt.convertHull binary64 (⟨(f 9007199254740991 971), (f 9007199254740991 971)⟩ : Itv)))) (⟨(f 16777215 104), .pinf⟩)),
    (6576, eqB (if !(⟨.ninf, (f (2476979795053773) (-50))⟩ : Itv).isValid then Itv.empty else Fmt.convertHull binary32 (Fmt.ceilI (Fmt.convertHull binary64 (⟨.ninf, (f (2476979795053773) (-50))⟩ : Itv)))) (⟨.ninf, (f 3 0)⟩)),
    (6577, eqB (if !(⟨.ninf, (f (-9007199254740991) (971))⟩ : Itv).isValid then Itv.empty else Fmt.convertHull binary32 (Fmt.ceilI (Fmt.convertHull binary64 (⟨.ninf, (f (-9007199254740991) (971))⟩ : Itv)))) (⟨.ninf, (f (-16777215) (104))⟩)),
    (6582, Itv.isEmpty (if !(⟨(f 1 0), (f (-9007199254740991) (971))⟩ : Itv).isValid then Itv.empty else Fmt.convertHull binary32 (Fmt.ceilI (Fmt.convertHull binary64 (⟨(f 1 0), (f (-9007199254740991) (971))⟩ : Itv))) : Itv)),
    (6594, eqD (Fmt.ceilD (⟨⟨(f (2476979795053773) (-51)), (f (4278419646001971) (-51))⟩, .com⟩ : DItv)) (⟨⟨(f 2 0), (f 2 0)⟩, .com⟩)),
    (6595, eqD (Fmt.ceilD (⟨⟨(f (2476979795053773) (-51)), (f 2 0)⟩, .com⟩ : DItv)) (⟨⟨(f 2 0), (f 2 0)⟩, .dac⟩)),
    (6596, eqD (Fmt.ceilD (⟨⟨(f (-2476979795053773) (-51)), (f 2 0)⟩, .com⟩ : DItv)) (⟨⟨(f (-1) (0)), (f 2 0)⟩, .defd⟩)),
    (6597, eqD (Fmt.ceilD (⟨⟨(f (-2476979795053773) (-51)), (f 0 0)⟩, .dac⟩ : DItv)) (⟨⟨(f (-1) (0)), (f 0 0)⟩, .defd⟩)),
    (6598, eqD (Fmt.ceilD (⟨⟨(f (-2476979795053773) (-51)), .nzero⟩, .trv⟩ : DItv)) (⟨⟨(f (-1) (0)), (f 0 0)⟩, .trv⟩)),
    (6599, eqD (Fmt.ceilD (⟨⟨(f (-2476979795053773) (-51)), (f (-3602879701896397) (-53))⟩, .dac⟩ : DItv)) (⟨⟨(f (-1) (0)), (f 0 0)⟩, .defd⟩)),
    (6600, eqD (Fmt.ceilD (⟨⟨(f (-4278419646001971) (-51)), (f (2476979795053773) (-50))⟩, .com⟩ : DItv)) (⟨⟨(f (-1) (0)), (f 3 0)⟩, .defd⟩)),
    (6601, eqD (Fmt.ceilD (⟨⟨(f (-1) (0)), (f (2476979795053773) (-50))⟩, .dac⟩ : DItv)) (⟨⟨(f (-1) (0)), (f 3 0)⟩, .defd⟩)),
    (6602, eqD (Fmt.ceilD (⟨⟨(f 0 0), (f (2476979795053773) (-50))⟩, .trv⟩ : DItv)) (⟨⟨(f 0 0), (f 3 0)⟩, .trv⟩)),
    (6603, eqD (Fmt.ceilD (⟨⟨.nzero, (f (2476979795053773) (-50))⟩, .defd⟩ : DItv)) (⟨⟨(f 0 0), (f 3 0)⟩, .defd⟩)),
    (6604, eqD (Fmt.ceilD (⟨⟨(f (-3) (-1)), .pinf⟩, .trv⟩ : DItv)) (⟨⟨(f (-1) (0)), .pinf⟩, .trv⟩)),
    (6605, eqD (Fmt.ceilD (⟨⟨(f 9007199254740991 971), .pinf⟩, .dac⟩ : DItv)) (⟨⟨(f 9007199254740991 971), .pinf⟩, .defd⟩)),
    (6606, eqD (Fmt.ceilD (⟨⟨(f 9007199254740991 971), (f 9007199254740991 971)⟩, .com⟩ : DItv)) (⟨⟨(f 9007199254740991 971), (f 9007199254740991 971)⟩, .dac⟩)),
    (6607, eqD (Fmt.ceilD (⟨⟨.ninf, (f (2476979795053773) (-50))⟩, .trv⟩ : DItv)) (⟨⟨.ninf, (f 3 0)⟩, .trv⟩)),
    (6608, eqD (Fmt.ceilD (⟨⟨.ninf, (f (-9007199254740991) (971))⟩, .dac⟩ : DItv)) (⟨⟨.ninf, (f (-9007199254740991) (971))⟩, .defd⟩)),
    (6613, DItv.isNai (Fmt.ceilD (⟨⟨(f 1 0), (f (-9007199254740991) (971))⟩, .trv⟩ : DItv) : DItv)),
    (6625, eqD (if !(⟨⟨.nzero, (f (9227469) (-22))⟩, .com⟩ : DItv).isValid || (⟨⟨.nzero, (f (9227469) (-22))⟩, .com⟩ : DItv).isNai then DItv.nai else Fmt.convertHullD binary64 (Fmt.ceilD (Fmt.convertHullD binary64 (⟨⟨.nzero, (f (9227469) (-22))⟩, .com⟩ : DItv)))) (⟨⟨(f 0 0), (f 3 0)⟩, .defd⟩)),
    (6626, eqD (if !(⟨⟨(f (-3) (-1)), .pinf⟩, .dac⟩ : DItv).isValid || (⟨⟨(f (-3) (-1)), .pinf⟩, .dac⟩ : DItv).isNai then DItv.nai else Fmt.convertHullD binary32 (Fmt.ceilD (Fmt.convertHullD binary64 (⟨⟨(f (-3) (-1)), .pinf⟩, .dac⟩ : DItv)))) (⟨⟨(f (-1) (0)), .pinf⟩, .defd⟩)),
    (6627, eqD (if !(⟨⟨(f 9007199254740991 971), .pinf⟩, .defd⟩ : DItv).isValid || (⟨⟨(f 9007199254740991 971), .pinf⟩, .defd⟩ : DItv).isNai then DItv.nai else Fmt.convertHullD binary32 (Fmt.ceilD (Fmt.convertHullD binary64 (⟨⟨(f 9007199254740991 971), .pinf⟩, .defd⟩ : DItv)))) (⟨⟨(f 16777215 104), .pinf⟩, .defd⟩)),
    (6628, eqD (if !(⟨⟨(f 9007199254740991 971), (f 9007199254740991 971)⟩, .com⟩ : DItv).isValid || (⟨⟨(f 9007199254740991 971), (f 9007199254740991 971)⟩, .com⟩ : DItv).isNai then DItv.nai else Fmt.convertHullD binary32 (Fmt.ceilD (Fmt.convertHullD binary64 (⟨⟨(f 9007199254740991 971), (f 9007199254740991 971)⟩, .com⟩ : DItv)))) (⟨⟨(f 16777215 104), .pinf⟩, .dac⟩)),
    (6629, eqD (if !(⟨⟨.ninf, (f (2476979795053773) (-50))⟩, .trv⟩ : DItv).isValid || (⟨⟨.ninf, (f (2476979795053773) (-50))⟩, .trv⟩ : DItv).isNai then DItv.nai else Fmt.convertHullD binary32 (Fmt.ceilD (Fmt.convertHullD binary64 (⟨⟨.ninf, (f (2476979795053773) (-50))⟩, .trv⟩ : DItv)))) (⟨⟨.ninf, (f 3 0)⟩, .trv⟩)),
    (6630, eqD (if !(⟨⟨.ninf, (f (-9007199254740991) (971))⟩, .dac⟩ : DItv).isValid || (⟨⟨.ninf, (f (-9007199254740991) (971))⟩, .dac⟩ : DItv).isNai then DItv.nai else Fmt.convertHullD binary32 (Fmt.ceilD (Fmt.convertHullD binary64 (⟨⟨.ninf, (f (-9007199254740991) (971))⟩, .dac⟩ : DItv)))) (⟨⟨.ninf, (f (-16777215) (104))⟩, .defd⟩)),
    (6635, DItv.isNai (if !(⟨⟨(f 1 0), (f (-9007199254740991) (971))⟩, .trv⟩ : DItv).isValid || (⟨⟨(f 1 0), (f (-9007199254740991) (971))⟩, .trv⟩ : DItv).isNai then DItv.nai else Fmt.convertHullD binary32 (Fmt.ceilD (Fmt.convertHullD binary64 (⟨⟨(f 1 0), (f (-9007199254740991) (971))⟩, .trv⟩ : DItv))) : DItv)),
    (6651, Itv.isEmpty (Fmt.floorI (Itv.empty : Itv) : Itv)),
    (6652, eqB (Fmt.floorI (Itv.entire : Itv)) (Itv.entire)),
    (6653, eqB (Fmt.floorI (⟨(f (2476979795053773) (-51)), (f 2 0)⟩ : Itv)) (⟨(f 1 0), (f 2 0)⟩)),
    (6654, eqB (Fmt.floorI (⟨(f (-2476979795053773) (-51)), (f 2 0)⟩ : Itv)) (⟨(f (-2) (0)), (f 2 0)⟩)),
    (6655, eqB (Fmt.floorI (⟨(f (-2476979795053773) (-51)), (f 0 0)⟩ : Itv)) (⟨(f (-2) (0)), (f 0 0)⟩)),
    (6656, eqB (Fmt.floorI (⟨(f (-2476979795053773) (-51)), .nzero⟩ : Itv)) (⟨(f (-2) (0)), (f 0 0)⟩)),
    (6657, eqB (Fmt.floorI (⟨(f (-2476979795053773) (-51)), (f (-3602879701896397) (-53))⟩ : Itv)) (⟨(f (-2) (0)), (f (-1) (0))⟩)),
    (6658, eqB (Fmt.floorI (⟨(f (-4278419646001971) (-51)), (f (2476979795053773) (-50))⟩ : Itv)) (⟨(f (-2) (0)), (f 2 0)⟩)),
    (6659, eqB (Fmt.floorI (⟨(f (-1) (0)), (f (2476979795053773) (-50))⟩ : Itv)) (⟨(f (-1) (0)), (f 2 0)⟩)),
    (6660, eqB (Fmt.floorI (⟨(f 0 0), (f (2476979795053773) (-50))⟩ : Itv)) (⟨(f 0 0), (f 2 0)⟩)),
    (6661, eqB (Fmt.floorI (⟨.nzero, (f (2476979795053773) (-50))⟩ : Itv)) (⟨(f 0 0), (f 2 0)⟩)),
    (6662, eqB (Fmt.floorI (⟨(f (-3) (-1)), .pinf⟩ : Itv)) (⟨(f (-2) (0)), .pinf⟩)),
    (6663, eqB (Fmt.floorI (⟨.ninf, (f (2476979795053773) (-50))⟩ : Itv)) (⟨.ninf, (f 2 0)⟩)),
    (6666, Itv.isEmpty (Fmt.floorI (⟨(f 1 0), (f (-9007199254740991) (971))⟩ : Itv) : Itv)),
    (6678, eqB (if !(⟨.nzero, (f (9227469) (-22))⟩ : Itv).isValid then Itv.empty else Fmt.convertHull binary64 (Fmt.floorI (Fmt.convertHull binary64 (⟨.nzero, (f (9227469) (-22))⟩ : Itv)))) (⟨(f 0 0), (f 2 0)⟩)),
    (6679, eqB (if !(⟨(f (-3) (-1)), .pinf⟩ : Itv).isValid then Itv.empty else Fmt.convertHull binary32 (Fmt.floorI (Fmt.convertHull binary64 (⟨(f (-3) (-1)), .pinf⟩ : Itv)))) (⟨(f (-2) (0)), .pinf⟩)),
    (6680, eqB (if !(⟨(f 9007199254740991 971), .pinf⟩ : Itv).isValid then Itv.empty else Fmt.convertHull binary32 (Fmt.floorI (Fmt.convertHull binary64 (⟨(f 9007199254740991 971), .pinf⟩ : Itv)))) (⟨(f 16777215 104), .pinf⟩)),
    (6681, eqB (if !(⟨(f 9007199254740991 971), (f 9007199254740991 971)⟩ : Itv).isValid then Itv.empty else Fmt.convertHull binary32 (Fmt.floorI (Fmt.convertHull binary64 (⟨(f 9007199254740991 971), (f 9007199254740991 971)⟩ : Itv)))) (⟨(f 16777215 104), .pinf⟩)),
    (6682, eqB (if !(⟨.ninf, (f (2476979795053773) (-50))⟩ : Itv).isValid then Itv.empty else Fmt.convertHull binary32 (Fmt.floorI (Fmt.convertHull binary64 (⟨.ninf, (f (2476979795053773) (-50))⟩ : Itv)))) (⟨.ninf, (f 2 0)⟩)),
    (6683, eqB (if !(⟨.ninf, (f (-9007199254740991) (971))⟩ : Itv).isValid then Itv.empty else Fmt.convertHull binary32 (Fmt.floorI (Fmt.convertHull binary64 (⟨.ninf, (f (-9007199254740991) (971))⟩ : Itv)))) (⟨.ninf, (f (-16777215) (104))⟩)),
    (6688, Itv.isEmpty (if !(⟨(f 1 0), (f (-9007199254740991) (971))⟩ : Itv).isValid then Itv.empty else Fmt.convertHull binary32 (Fmt.floorI (Fmt.convertHull binary64 (⟨(f 1 0), (f (-9007199254740991) (971))⟩ : Itv))) : Itv)),
    (6700, eqD (Fmt.floorD (⟨⟨(f (2476979795053773) (-51)), (f 2 0)⟩, .com⟩ : DItv)) (⟨⟨(f 1 0), (f 2 0)⟩, .defd⟩)),
    (6701, eqD (Fmt.floorD (⟨⟨(f (-2476979795053773) (-51)), (f 2 0)⟩, .defd⟩ : DItv)) (⟨⟨(f (-2) (0)), (f 2 0)⟩, .defd⟩))] : List (ℕ × Bool)).all (·.2) = true := by
  decide +kernel

example : ([
    (6702, eqD (Fmt.floorD (⟨⟨(f (-2476979795053773) (-51)), (f 0 0)⟩, .dac⟩ : DItv)) (⟨⟨(f (-2) (0)), (f 0 0)⟩, .defd⟩)),
    (6703, eqD (Fmt.floorD (⟨⟨(f (-5404319552844595) (-52)), (f (-2476979795053773) (-51))⟩, .com⟩ : DItv)) (⟨⟨(f (-2) (0)), (f (-2) (0))⟩, .com⟩)),
    (6704, eqD (Fmt.floorD (⟨⟨(f (-2) (0)), (f (-2476979795053773) (-51))⟩, .com⟩ : DItv)) (⟨⟨(f (-2) (0)), (f (-2) (0))⟩, .dac⟩)),
    (6705, eqD (Fmt.floorD (⟨⟨(f (-2476979795053773) (-51)), (f (-3602879701896397) (-53))⟩, .defd⟩ : DItv)) (⟨⟨(f (-2) (0)), (f (-1) (0))⟩, .defd⟩)),
    (6706, eqD (Fmt.floorD (⟨⟨(f (-4278419646001971) (-51)), (f (2476979795053773) (-50))⟩, .com⟩ : DItv)) (⟨⟨(f (-2) (0)), (f 2 0)⟩, .defd⟩)),
    (6707, eqD (Fmt.floorD (⟨⟨(f (-1) (0)), (f (2476979795053773) (-50))⟩, .trv⟩ : DItv)) (⟨⟨(f (-1) (0)), (f 2 0)⟩, .trv⟩)),
    (6708, eqD (Fmt.floorD (⟨⟨(f 0 0), (f (2476979795053773) (-50))⟩, .trv⟩ : DItv)) (⟨⟨(f 0 0), (f 2 0)⟩, .trv⟩)),
    (6709, eqD (Fmt.floorD (⟨⟨.nzero, (f (2476979795053773) (-50))⟩, .com⟩ : DItv)) (⟨⟨(f 0 0), (f 2 0)⟩, .defd⟩)),
    (6710, eqD (Fmt.floorD (⟨⟨(f (-3) (-1)), .pinf⟩, .dac⟩ : DItv)) (⟨⟨(f (-2) (0)), .pinf⟩, .defd⟩)),
    (6711, eqD (Fmt.floorD (⟨⟨.ninf, (f (2476979795053773) (-50))⟩, .trv⟩ : DItv)) (⟨⟨.ninf, (f 2 0)⟩, .trv⟩)),
    (6712, eqD (Fmt.floorD (⟨⟨(f (-9007199254740991) (971)), (f (-9007199254740991) (971))⟩, .com⟩ : DItv)) (⟨⟨(f (-9007199254740991) (971)), (f (-9007199254740991) (971))⟩, .dac⟩)),
    (6717, DItv.isNai (Fmt.floorD (⟨⟨(f 1 0), (f (-9007199254740991) (971))⟩, .trv⟩ : DItv) : DItv)),
    (6729, eqD (if !(⟨⟨.nzero, (f (9227469) (-22))⟩, .com⟩ : DItv).isValid || (⟨⟨.nzero, (f (9227469) (-22))⟩, .com⟩ : DItv).isNai then DItv.nai else Fmt.convertHullD binary64 (Fmt.floorD (Fmt.convertHullD binary64 (⟨⟨.nzero, (f (9227469) (-22))⟩, .com⟩ : DItv)))) (⟨⟨(f 0 0), (f 2 0)⟩, .defd⟩)),
    (6730, eqD (if !(⟨⟨(f (-3) (-1)), .pinf⟩, .dac⟩ : DItv).isValid || (⟨⟨(f (-3) (-1)), .pinf⟩, .dac⟩ : DItv).isNai then DItv.nai else Fmt.convertHullD binary32 (Fmt.floorD (Fmt.convertHullD binary64 (⟨⟨(f (-3) (-1)), .pinf⟩, .dac⟩ : DItv)))) (⟨⟨(f (-2) (0)), .pinf⟩, .defd⟩)),
    (6731, eqD (if !(⟨⟨(f 9007199254740991 971), .pinf⟩, .dac⟩ : DItv).isValid || (⟨⟨(f 9007199254740991 971), .pinf⟩, .dac⟩ : DItv).isNai then DItv.nai else Fmt.convertHullD binary32 (Fmt.floorD (Fmt.convertHullD binary64 (⟨⟨(f 9007199254740991 971), .pinf⟩, .dac⟩ : DItv)))) (⟨⟨(f 16777215 104), .pinf⟩, .defd⟩)),
    (6732, eqD (if !(⟨⟨(f 9007199254740991 971), (f 9007199254740991 971)⟩, .com⟩ : DItv).isValid || (⟨⟨(f 9007199254740991 971), (f 9007199254740991 971)⟩, .com⟩ : DItv).isNai then DItv.nai else Fmt.convertHullD binary32 (Fmt.floorD (Fmt.convertHullD binary64 (⟨⟨(f 9007199254740991 971), (f 9007199254740991 971)⟩, .com⟩ : DItv)))) (⟨⟨(f 16777215 104), .pinf⟩, .dac⟩)),
    (6733, eqD (if !(⟨⟨.ninf, (f (2476979795053773) (-50))⟩, .trv⟩ : DItv).isValid || (⟨⟨.ninf, (f (2476979795053773) (-50))⟩, .trv⟩ : DItv).isNai then DItv.nai else Fmt.convertHullD binary32 (Fmt.floorD (Fmt.convertHullD binary64 (⟨⟨.ninf, (f (2476979795053773) (-50))⟩, .trv⟩ : DItv)))) (⟨⟨.ninf, (f 2 0)⟩, .trv⟩)),
    (6734, eqD (if !(⟨⟨.ninf, (f (-9007199254740991) (971))⟩, .dac⟩ : DItv).isValid || (⟨⟨.ninf, (f (-9007199254740991) (971))⟩, .dac⟩ : DItv).isNai then DItv.nai else Fmt.convertHullD binary32 (Fmt.floorD (Fmt.convertHullD binary64 (⟨⟨.ninf, (f (-9007199254740991) (971))⟩, .dac⟩ : DItv)))) (⟨⟨.ninf, (f (-16777215) (104))⟩, .defd⟩)),
    (6739, DItv.isNai (if !(⟨⟨(f 1 0), (f (-9007199254740991) (971))⟩, .trv⟩ : DItv).isValid || (⟨⟨(f 1 0), (f (-9007199254740991) (971))⟩, .trv⟩ : DItv).isNai then DItv.nai else Fmt.convertHullD binary32 (Fmt.floorD (Fmt.convertHullD binary64 (⟨⟨(f 1 0), (f (-9007199254740991) (971))⟩, .trv⟩ : DItv))) : DItv)),
    (6755, Itv.isEmpty (Fmt.truncI (Itv.empty : Itv) : Itv)),
    (6756, eqB (Fmt.truncI (Itv.entire : Itv)) (Itv.entire)),
    (6757, eqB (Fmt.truncI (⟨(f (2476979795053773) (-51)), (f (4728779608739021) (-51))⟩ : Itv)) (⟨(f 1 0), (f 2 0)⟩)),
    (6758, eqB (Fmt.truncI (⟨(f (-2476979795053773) (-51)), (f 2 0)⟩ : Itv)) (⟨(f (-1) (0)), (f 2 0)⟩)),
    (6759, eqB (Fmt.truncI (⟨(f (-2476979795053773) (-51)), (f 0 0)⟩ : Itv)) (⟨(f (-1) (0)), (f 0 0)⟩)),
    (6760, eqB (Fmt.truncI (⟨(f (-2476979795053773) (-51)), .nzero⟩ : Itv)) (⟨(f (-1) (0)), (f 0 0)⟩)),
    (6761, eqB (Fmt.truncI (⟨(f (-2476979795053773) (-51)), (f (-3602879701896397) (-53))⟩ : Itv)) (⟨(f (-1) (0)), (f 0 0)⟩)),
    (6762, eqB (Fmt.truncI (⟨(f (-4278419646001971) (-51)), (f (2476979795053773) (-50))⟩ : Itv)) (⟨(f (-1) (0)), (f 2 0)⟩)),
    (6763, eqB (Fmt.truncI (⟨(f (-1) (0)), (f (2476979795053773) (-50))⟩ : Itv)) (⟨(f (-1) (0)), (f 2 0)⟩)),
    (6764, eqB (Fmt.truncI (⟨(f 0 0), (f (2476979795053773) (-50))⟩ : Itv)) (⟨(f 0 0), (f 2 0)⟩)),
    (6765, eqB (Fmt.truncI (⟨.nzero, (f (2476979795053773) (-50))⟩ : Itv)) (⟨(f 0 0), (f 2 0)⟩)),
    (6766, eqB (Fmt.truncI (⟨(f (-3) (-1)), .pinf⟩ : Itv)) (⟨(f (-1) (0)), .pinf⟩)),
    (6767, eqB (Fmt.truncI (⟨.ninf, (f (2476979795053773) (-50))⟩ : Itv)) (⟨.ninf, (f 2 0)⟩)),
    (6770, Itv.isEmpty (Fmt.truncI (⟨(f 1 0), (f (-9007199254740991) (971))⟩ : Itv) : Itv)),
    (6782, eqB (if !(⟨(f (9227469) (-23)), (f (4404019) (-21))⟩ : Itv).isValid then Itv.empty else Fmt.convertHull binary64 (Fmt.truncI (Fmt.convertHull binary64 (⟨(f (9227469) (-23)), (f (4404019) (-21))⟩ : Itv)))) (⟨(f 1 0), (f 2 0)⟩)),
    (6783, eqB (if !(⟨(f (-2476979795053773) (-51)), (f (-3602879701896397) (-53))⟩ : Itv).isValid then Itv.empty else Fmt.convertHull binary32 (Fmt.truncI (Fmt.convertHull binary64 (⟨(f (-2476979795053773) (-51)), (f (-3602879701896397) (-53))⟩ : Itv)))) (⟨(f (-1) (0)), (f 0 0)⟩)),
    (6784, eqB (if !(⟨(f (-3) (-1)), .pinf⟩ : Itv).isValid then Itv.empty else Fmt.convertHull binary64 (Fmt.truncI (Fmt.convertHull binary64 (⟨(f (-3) (-1)), .pinf⟩ : Itv)))) (⟨(f (-1) (0)), .pinf⟩)),
    (6785, eqB (if !(⟨.ninf, (f (2476979795053773) (-50))⟩ : Itv).isValid then Itv.empty else Fmt.convertHull binary32 (Fmt.truncI (Fmt.convertHull binary64 (⟨.ninf, (f (2476979795053773) (-50))⟩ : Itv)))) (⟨.ninf, (f 2 0)⟩)),
    (6790, Itv.isEmpty (if !(⟨(f 1 0), (f (-9007199254740991) (971))⟩ : Itv).isValid then Itv.empty else Fmt.convertHull binary32 (Fmt.truncI (Fmt.convertHull binary64 (⟨(f 1 0), (f (-9007199254740991) (971))⟩ : Itv))) : Itv)),
    (6802, eqD (Fmt.truncD (⟨⟨(f 1 0), (f (5404319552844595) (-52))⟩, .com⟩ : DItv)) (⟨⟨(f 1 0), (f 1 0)⟩, .dac⟩)),
    (6803, eqD (Fmt.truncD (⟨⟨(f (2476979795053773) (-51)), (f (5404319552844595) (-52))⟩, .com⟩ : DItv)) (⟨⟨(f 1 0), (f 1 0)⟩, .com⟩)),
    (6804, eqD (Fmt.truncD (⟨⟨(f 0 0), (f (8106479329266893) (-53))⟩, .com⟩ : DItv)) (⟨⟨(f 0 0), (f 0 0)⟩, .com⟩)),
    (6805, eqD (Fmt.truncD (⟨⟨(f (-5404319552844595) (-52)), (f (-2476979795053773) (-51))⟩, .com⟩ : DItv)) (⟨⟨(f (-1) (0)), (f (-1) (0))⟩, .com⟩)),
    (6806, eqD (Fmt.truncD (⟨⟨(f (-5404319552844595) (-52)), (f (-1) (0))⟩, .com⟩ : DItv)) (⟨⟨(f (-1) (0)), (f (-1) (0))⟩, .dac⟩)),
    (6807, eqD (Fmt.truncD (⟨⟨(f (2476979795053773) (-51)), (f (4728779608739021) (-51))⟩, .com⟩ : DItv)) (⟨⟨(f 1 0), (f 2 0)⟩, .defd⟩)),
    (6808, eqD (Fmt.truncD (⟨⟨(f (2476979795053773) (-51)), (f (4278419646001971) (-51))⟩, .com⟩ : DItv)) (⟨⟨(f 1 0), (f 1 0)⟩, .com⟩)),
    (6809, eqD (Fmt.truncD (⟨⟨(f (-2476979795053773) (-51)), (f 2 0)⟩, .dac⟩ : DItv)) (⟨⟨(f (-1) (0)), (f 2 0)⟩, .defd⟩)),
    (6810, eqD (Fmt.truncD (⟨⟨(f (-2476979795053773) (-51)), (f 0 0)⟩, .trv⟩ : DItv)) (⟨⟨(f (-1) (0)), (f 0 0)⟩, .trv⟩)),
    (6811, eqD (Fmt.truncD (⟨⟨(f (-2476979795053773) (-51)), .nzero⟩, .defd⟩ : DItv)) (⟨⟨(f (-1) (0)), (f 0 0)⟩, .defd⟩)),
    (6812, eqD (Fmt.truncD (⟨⟨(f (-2476979795053773) (-51)), (f (-3602879701896397) (-53))⟩, .com⟩ : DItv)) (⟨⟨(f (-1) (0)), (f 0 0)⟩, .defd⟩)),
    (6813, eqD (Fmt.truncD (⟨⟨(f (-4278419646001971) (-51)), (f (2476979795053773) (-50))⟩, .defd⟩ : DItv)) (⟨⟨(f (-1) (0)), (f 2 0)⟩, .defd⟩))] : List (ℕ × Bool)).all (·.2) = true := by
  decide +kernel

example : ([
    (6814, eqD (Fmt.truncD (⟨⟨(f (-1) (0)), (f (2476979795053773) (-50))⟩, .dac⟩ : DItv)) (⟨⟨(f (-1) (0)), (f 2 0)⟩, .defd⟩)),
    (6815, eqD (Fmt.truncD (⟨⟨(f (-3) (-1)), .pinf⟩, .dac⟩ : DItv)) (⟨⟨(f (-1) (0)), .pinf⟩, .defd⟩)),
    (6816, eqD (Fmt.truncD (⟨⟨.ninf, (f (2476979795053773) (-50))⟩, .trv⟩ : DItv)) (⟨⟨.ninf, (f 2 0)⟩, .trv⟩)),
    (6817, eqD (Fmt.truncD (⟨⟨(f 9007199254740991 971), (f 9007199254740991 971)⟩, .com⟩ : DItv)) (⟨⟨(f 9007199254740991 971), (f 9007199254740991 971)⟩, .dac⟩)),
    (6818, eqD (Fmt.truncD (⟨⟨(f 9007199254740991 971), .pinf⟩, .dac⟩ : DItv)) (⟨⟨(f 9007199254740991 971), .pinf⟩, .defd⟩)),
    (6823, DItv.isNai (Fmt.truncD (⟨⟨(f 1 0), (f (-9007199254740991) (971))⟩, .trv⟩ : DItv) : DItv)),
    (6835, eqD (if !(⟨⟨(f (9227469) (-23)), (f (4404019) (-21))⟩, .com⟩ : DItv).isValid || (⟨⟨(f (9227469) (-23)), (f (4404019) (-21))⟩, .com⟩ : DItv).isNai then DItv.nai else Fmt.convertHullD binary64 (Fmt.truncD (Fmt.convertHullD binary64 (⟨⟨(f (9227469) (-23)), (f (4404019) (-21))⟩, .com⟩ : DItv)))) (⟨⟨(f 1 0), (f 2 0)⟩, .defd⟩)),
    (6836, eqD (if !(⟨⟨(f (-2476979795053773) (-51)), (f (-3602879701896397) (-53))⟩, .trv⟩ : DItv).isValid || (⟨⟨(f (-2476979795053773) (-51)), (f (-3602879701896397) (-53))⟩, .trv⟩ : DItv).isNai then DItv.nai else Fmt.convertHullD binary32 (Fmt.truncD (Fmt.convertHullD binary64 (⟨⟨(f (-2476979795053773) (-51)), (f (-3602879701896397) (-53))⟩, .trv⟩ : DItv)))) (⟨⟨(f (-1) (0)), (f 0 0)⟩, .trv⟩)),
    (6837, eqD (if !(⟨⟨(f (-3) (-1)), .pinf⟩, .dac⟩ : DItv).isValid || (⟨⟨(f (-3) (-1)), .pinf⟩, .dac⟩ : DItv).isNai then DItv.nai else Fmt.convertHullD binary64 (Fmt.truncD (Fmt.convertHullD binary64 (⟨⟨(f (-3) (-1)), .pinf⟩, .dac⟩ : DItv)))) (⟨⟨(f (-1) (0)), .pinf⟩, .defd⟩)),
    (6838, eqD (if !(⟨⟨.ninf, (f (2476979795053773) (-50))⟩, .defd⟩ : DItv).isValid || (⟨⟨.ninf, (f (2476979795053773) (-50))⟩, .defd⟩ : DItv).isNai then DItv.nai else Fmt.convertHullD binary32 (Fmt.truncD (Fmt.convertHullD binary64 (⟨⟨.ninf, (f (2476979795053773) (-50))⟩, .defd⟩ : DItv)))) (⟨⟨.ninf, (f 2 0)⟩, .defd⟩)),
    (6839, eqD (if !(⟨⟨(f 9007199254740991 971), (f 9007199254740991 971)⟩, .com⟩ : DItv).isValid || (⟨⟨(f 9007199254740991 971), (f 9007199254740991 971)⟩, .com⟩ : DItv).isNai then DItv.nai else Fmt.convertHullD binary32 (Fmt.truncD (Fmt.convertHullD binary64 (⟨⟨(f 9007199254740991 971), (f 9007199254740991 971)⟩, .com⟩ : DItv)))) (⟨⟨(f 16777215 104), .pinf⟩, .dac⟩)),
    (6840, eqD (if !(⟨⟨(f 9007199254740991 971), .pinf⟩, .dac⟩ : DItv).isValid || (⟨⟨(f 9007199254740991 971), .pinf⟩, .dac⟩ : DItv).isNai then DItv.nai else Fmt.convertHullD binary32 (Fmt.truncD (Fmt.convertHullD binary64 (⟨⟨(f 9007199254740991 971), .pinf⟩, .dac⟩ : DItv)))) (⟨⟨(f 16777215 104), .pinf⟩, .defd⟩)),
    (6845, DItv.isNai (if !(⟨⟨(f 1 0), (f (-9007199254740991) (971))⟩, .trv⟩ : DItv).isValid || (⟨⟨(f 1 0), (f (-9007199254740991) (971))⟩, .trv⟩ : DItv).isNai then DItv.nai else Fmt.convertHullD binary32 (Fmt.truncD (Fmt.convertHullD binary64 (⟨⟨(f 1 0), (f (-9007199254740991) (971))⟩, .trv⟩ : DItv))) : DItv)),
    (6861, Itv.isEmpty (Fmt.roundEvenI (Itv.empty : Itv) : Itv)),
    (6862, eqB (Fmt.roundEvenI (Itv.entire : Itv)) (Itv.entire)),
    (6863, eqB (Fmt.roundEvenI (⟨(f (2476979795053773) (-51)), (f (4728779608739021) (-51))⟩ : Itv)) (⟨(f 1 0), (f 2 0)⟩)),
    (6864, eqB (Fmt.roundEvenI (⟨(f (-2476979795053773) (-51)), (f 2 0)⟩ : Itv)) (⟨(f (-1) (0)), (f 2 0)⟩)),
    (6865, eqB (Fmt.roundEvenI (⟨(f (-2476979795053773) (-51)), (f (-3602879701896397) (-53))⟩ : Itv)) (⟨(f (-1) (0)), (f 0 0)⟩)),
    (6866, eqB (Fmt.roundEvenI (⟨(f (-2476979795053773) (-51)), (f 0 0)⟩ : Itv)) (⟨(f (-1) (0)), (f 0 0)⟩)),
    (6867, eqB (Fmt.roundEvenI (⟨(f (-2476979795053773) (-51)), .nzero⟩ : Itv)) (⟨(f (-1) (0)), (f 0 0)⟩)),
    (6868, eqB (Fmt.roundEvenI (⟨(f (-4278419646001971) (-51)), (f (2476979795053773) (-50))⟩ : Itv)) (⟨(f (-2) (0)), (f 2 0)⟩)),
    (6869, eqB (Fmt.roundEvenI (⟨(f (-1) (0)), (f (2476979795053773) (-50))⟩ : Itv)) (⟨(f (-1) (0)), (f 2 0)⟩)),
    (6870, eqB (Fmt.roundEvenI (⟨(f (3) (-1)), (f (4728779608739021) (-51))⟩ : Itv)) (⟨(f 2 0), (f 2 0)⟩)),
    (6871, eqB (Fmt.roundEvenI (⟨(f (-3) (-1)), (f 2 0)⟩ : Itv)) (⟨(f (-2) (0)), (f 2 0)⟩)),
    (6872, eqB (Fmt.roundEvenI (⟨(f (-2476979795053773) (-51)), (f (-1) (-1))⟩ : Itv)) (⟨(f (-1) (0)), (f 0 0)⟩)),
    (6873, eqB (Fmt.roundEvenI (⟨(f (-4278419646001971) (-51)), (f (5) (-1))⟩ : Itv)) (⟨(f (-2) (0)), (f 2 0)⟩)),
    (6874, eqB (Fmt.roundEvenI (⟨(f 0 0), (f (5) (-1))⟩ : Itv)) (⟨(f 0 0), (f 2 0)⟩)),
    (6875, eqB (Fmt.roundEvenI (⟨.nzero, (f (5) (-1))⟩ : Itv)) (⟨(f 0 0), (f 2 0)⟩)),
    (6876, eqB (Fmt.roundEvenI (⟨(f (-3) (-1)), (f (5) (-1))⟩ : Itv)) (⟨(f (-2) (0)), (f 2 0)⟩)),
    (6877, eqB (Fmt.roundEvenI (⟨(f (-3) (-1)), .pinf⟩ : Itv)) (⟨(f (-2) (0)), .pinf⟩)),
    (6878, eqB (Fmt.roundEvenI (⟨.ninf, (f (2476979795053773) (-50))⟩ : Itv)) (⟨.ninf, (f 2 0)⟩)),
    (6881, Itv.isEmpty (Fmt.roundEvenI (⟨(f 1 0), (f (-9007199254740991) (971))⟩ : Itv) : Itv)),
    (6893, eqB (if !(⟨(f (3) (-1)), (f (4404019) (-21))⟩ : Itv).isValid then Itv.empty else Fmt.convertHull binary64 (Fmt.roundEvenI (Fmt.convertHull binary64 (⟨(f (3) (-1)), (f (4404019) (-21))⟩ : Itv)))) (⟨(f 2 0), (f 2 0)⟩)),
    (6894, eqB (if !(⟨(f (-3) (-1)), (f (5) (-1))⟩ : Itv).isValid then Itv.empty else Fmt.convertHull binary32 (Fmt.roundEvenI (Fmt.convertHull binary64 (⟨(f (-3) (-1)), (f (5) (-1))⟩ : Itv)))) (⟨(f (-2) (0)), (f 2 0)⟩)),
    (6895, eqB (if !(⟨(f (-3) (-1)), .pinf⟩ : Itv).isValid then Itv.empty else Fmt.convertHull binary32 (Fmt.roundEvenI (Fmt.convertHull binary64 (⟨(f (-3) (-1)), .pinf⟩ : Itv)))) (⟨(f (-2) (0)), .pinf⟩)),
    (6901, Itv.isEmpty (if !(⟨(f 1 0), (f (-9007199254740991) (971))⟩ : Itv).isValid then Itv.empty else Fmt.convertHull binary32 (Fmt.roundEvenI (Fmt.convertHull binary64 (⟨(f 1 0), (f (-9007199254740991) (971))⟩ : Itv))) : Itv)),
    (6913, eqD (Fmt.roundEvenD binary64 (⟨⟨(f (2476979795053773) (-51)), (f (4728779608739021) (-51))⟩, .com⟩ : DItv)) (⟨⟨(f 1 0), (f 2 0)⟩, .defd⟩)),
    (6914, eqD (Fmt.roundEvenD binary64 (⟨⟨(f (-2476979795053773) (-51)), (f 2 0)⟩, .trv⟩ : DItv)) (⟨⟨(f (-1) (0)), (f 2 0)⟩, .trv⟩)),
    (6915, eqD (Fmt.roundEvenD binary64 (⟨⟨(f (-3602879701896397) (-51)), (f (-3) (-1))⟩, .com⟩ : DItv)) (⟨⟨(f (-2) (0)), (f (-2) (0))⟩, .dac⟩)),
    (6916, eqD (Fmt.roundEvenD binary64 (⟨⟨(f (-3602879701896397) (-51)), (f (-6980579422424269) (-52))⟩, .com⟩ : DItv)) (⟨⟨(f (-2) (0)), (f (-2) (0))⟩, .com⟩)),
    (6917, eqD (Fmt.roundEvenD binary64 (⟨⟨(f (-3602879701896397) (-51)), (f (-3152519739159347) (-51))⟩, .com⟩ : DItv)) (⟨⟨(f (-2) (0)), (f (-1) (0))⟩, .defd⟩)),
    (6918, eqD (Fmt.roundEvenD binary64 (⟨⟨(f (-3) (-1)), .pinf⟩, .dac⟩ : DItv)) (⟨⟨(f (-2) (0)), .pinf⟩, .defd⟩)),
    (6919, eqD (Fmt.roundEvenD binary64 (⟨⟨.ninf, (f (2476979795053773) (-50))⟩, .trv⟩ : DItv)) (⟨⟨.ninf, (f 2 0)⟩, .trv⟩)),
    (6924, DItv.isNai (Fmt.roundEvenD binary64 (⟨⟨(f 1 0), (f (-9007199254740991) (971))⟩, .trv⟩ : DItv) : DItv)),
    (6936, eqD (if !(⟨⟨(f (3) (-1)), (f (4404019) (-21))⟩, .com⟩ : DItv).isValid || (⟨⟨(f (3) (-1)), (f (4404019) (-21))⟩, .com⟩ : DItv).isNai then DItv.nai else Fmt.convertHullD binary64 (Fmt.roundEvenD binary64 (Fmt.convertHullD binary64 (⟨⟨(f (3) (-1)), (f (4404019) (-21))⟩, .com⟩ : DItv)))) (⟨⟨(f 2 0), (f 2 0)⟩, .dac⟩)),
    (6937, eqD (if !(⟨⟨(f (-3) (-1)), (f (5) (-1))⟩, .com⟩ : DItv).isValid || (⟨⟨(f (-3) (-1)), (f (5) (-1))⟩, .com⟩ : DItv).isNai then DItv.nai else Fmt.convertHullD binary32 (Fmt.roundEvenD binary64 (Fmt.convertHullD binary64 (⟨⟨(f (-3) (-1)), (f (5) (-1))⟩, .com⟩ : DItv)))) (⟨⟨(f (-2) (0)), (f 2 0)⟩, .defd⟩)),
    (6938, eqD (if !(⟨⟨(f (-3) (-1)), .pinf⟩, .dac⟩ : DItv).isValid || (⟨⟨(f (-3) (-1)), .pinf⟩, .dac⟩ : DItv).isNai then DItv.nai else Fmt.convertHullD binary32 (Fmt.roundEvenD binary64 (Fmt.convertHullD binary64 (⟨⟨(f (-3) (-1)), .pinf⟩, .dac⟩ : DItv)))) (⟨⟨(f (-2) (0)), .pinf⟩, .defd⟩)),
    (6943, DItv.isNai (if !(⟨⟨(f 1 0), (f (-9007199254740991) (971))⟩, .trv⟩ : DItv).isValid || (⟨⟨(f 1 0), (f (-9007199254740991) (971))⟩, .trv⟩ : DItv).isNai then DItv.nai else Fmt.convertHullD binary32 (Fmt.roundEvenD binary64 (Fmt.convertHullD binary64 (⟨⟨(f 1 0), (f (-9007199254740991) (971))⟩, .trv⟩ : DItv))) : DItv)),
    (6958, Itv.isEmpty (Fmt.roundAwayI (Itv.empty : Itv) : Itv)),
    (6959, eqB (Fmt.roundAwayI (Itv.entire : Itv)) (Itv.entire))] : List (ℕ × Bool)).all (·.2) = true := by
  decide +kernel

example : ([
    (6960, eqB (Fmt.roundAwayI (⟨(f (2476979795053773) (-51)), (f (4728779608739021) (-51))⟩ : Itv)) (⟨(f 1 0), (f 2 0)⟩)),
    (6961, eqB (Fmt.roundAwayI (⟨(f (-2476979795053773) (-51)), (f 2 0)⟩ : Itv)) (⟨(f (-1) (0)), (f 2 0)⟩)),
    (6962, eqB (Fmt.roundAwayI (⟨(f (-2476979795053773) (-51)), (f 0 0)⟩ : Itv)) (⟨(f (-1) (0)), (f 0 0)⟩)),
    (6963, eqB (Fmt.roundAwayI (⟨(f (-2476979795053773) (-51)), .nzero⟩ : Itv)) (⟨(f (-1) (0)), .nzero⟩)),
    (6964, eqB (Fmt.roundAwayI (⟨(f (-2476979795053773) (-51)), (f (-3602879701896397) (-53))⟩ : Itv)) (⟨(f (-1) (0)), (f 0 0)⟩)),
    (6965, eqB (Fmt.roundAwayI (⟨(f (-4278419646001971) (-51)), (f (2476979795053773) (-50))⟩ : Itv)) (⟨(f (-2) (0)), (f 2 0)⟩)),
    (6966, eqB (Fmt.roundAwayI (⟨(f (-1) (0)), (f (2476979795053773) (-50))⟩ : Itv)) (⟨(f (-1) (0)), (f 2 0)⟩)),
    (6967, eqB (Fmt.roundAwayI (⟨(f (1) (-1)), (f (4728779608739021) (-51))⟩ : Itv)) (⟨(f 1 0), (f 2 0)⟩)),
    (6968, eqB (Fmt.roundAwayI (⟨(f (-5) (-1)), (f 2 0)⟩ : Itv)) (⟨(f (-3) (0)), (f 2 0)⟩)),
    (6969, eqB (Fmt.roundAwayI (⟨(f (-2476979795053773) (-51)), (f (-1) (-1))⟩ : Itv)) (⟨(f (-1) (0)), (f (-1) (0))⟩)),
    (6970, eqB (Fmt.roundAwayI (⟨(f (-4278419646001971) (-51)), (f (5) (-1))⟩ : Itv)) (⟨(f (-2) (0)), (f 3 0)⟩)),
    (6971, eqB (Fmt.roundAwayI (⟨(f (-3) (-1)), (f (5) (-1))⟩ : Itv)) (⟨(f (-2) (0)), (f 3 0)⟩)),
    (6972, eqB (Fmt.roundAwayI (⟨(f 0 0), (f (5) (-1))⟩ : Itv)) (⟨(f 0 0), (f 3 0)⟩)),
    (6973, eqB (Fmt.roundAwayI (⟨.nzero, (f (5) (-1))⟩ : Itv)) (⟨(f 0 0), (f 3 0)⟩)),
    (6974, eqB (Fmt.roundAwayI (⟨(f (-3) (-1)), .pinf⟩ : Itv)) (⟨(f (-2) (0)), .pinf⟩)),
    (6975, eqB (Fmt.roundAwayI (⟨.ninf, (f (2476979795053773) (-50))⟩ : Itv)) (⟨.ninf, (f 2 0)⟩)),
    (6978, Itv.isEmpty (Fmt.roundAwayI (⟨(f 1 0), (f (-9007199254740991) (971))⟩ : Itv) : Itv)),
    (6990, eqB (if !(⟨(f (3) (-1)), (f (4404019) (-21))⟩ : Itv).isValid then Itv.empty else Fmt.convertHull binary64 (Fmt.roundAwayI (Fmt.convertHull binary64 (⟨(f (3) (-1)), (f (4404019) (-21))⟩ : Itv)))) (⟨(f 2 0), (f 2 0)⟩)),
    (6991, eqB (if !(⟨(f (-3) (-1)), (f (5) (-1))⟩ : Itv).isValid then Itv.empty else Fmt.convertHull binary32 (Fmt.roundAwayI (Fmt.convertHull binary64 (⟨(f (-3) (-1)), (f (5) (-1))⟩ : Itv)))) (⟨(f (-2) (0)), (f 3 0)⟩)),
    (6992, eqB (if !(⟨(f (-3) (-1)), .pinf⟩ : Itv).isValid then Itv.empty else Fmt.convertHull binary32 (Fmt.roundAwayI (Fmt.convertHull binary64 (⟨(f (-3) (-1)), .pinf⟩ : Itv)))) (⟨(f (-2) (0)), .pinf⟩)),
    (6997, Itv.isEmpty (if !(⟨(f 1 0), (f (-9007199254740991) (971))⟩ : Itv).isValid then Itv.empty else Fmt.convertHull binary32 (Fmt.roundAwayI (Fmt.convertHull binary64 (⟨(f 1 0), (f (-9007199254740991) (971))⟩ : Itv))) : Itv)),
    (7010, eqD (Fmt.roundAwayD binary64 (⟨⟨(f (2476979795053773) (-51)), (f (4728779608739021) (-51))⟩, .com⟩ : DItv)) (⟨⟨(f 1 0), (f 2 0)⟩, .defd⟩)),
    (7011, eqD (Fmt.roundAwayD binary64 (⟨⟨(f (-4278419646001971) (-51)), (f (2476979795053773) (-50))⟩, .com⟩ : DItv)) (⟨⟨(f (-2) (0)), (f 2 0)⟩, .defd⟩)),
    (7012, eqD (Fmt.roundAwayD binary64 (⟨⟨(f (4278419646001971) (-51)), (f (2476979795053773) (-50))⟩, .com⟩ : DItv)) (⟨⟨(f 2 0), (f 2 0)⟩, .com⟩)),
    (7013, eqD (Fmt.roundAwayD binary64 (⟨⟨(f (-1) (0)), (f (2476979795053773) (-50))⟩, .trv⟩ : DItv)) (⟨⟨(f (-1) (0)), (f 2 0)⟩, .trv⟩)),
    (7014, eqD (Fmt.roundAwayD binary64 (⟨⟨(f (5) (-1)), (f (5854679515581645) (-51))⟩, .com⟩ : DItv)) (⟨⟨(f 3 0), (f 3 0)⟩, .dac⟩)),
    (7015, eqD (Fmt.roundAwayD binary64 (⟨⟨(f (-3) (-1)), .pinf⟩, .dac⟩ : DItv)) (⟨⟨(f (-2) (0)), .pinf⟩, .defd⟩)),
    (7016, eqD (Fmt.roundAwayD binary64 (⟨⟨.ninf, (f (2476979795053773) (-50))⟩, .defd⟩ : DItv)) (⟨⟨.ninf, (f 2 0)⟩, .defd⟩)),
    (7021, DItv.isNai (Fmt.roundAwayD binary64 (⟨⟨(f 1 0), (f (-9007199254740991) (971))⟩, .trv⟩ : DItv) : DItv)),
    (7033, eqD (if !(⟨⟨(f (3) (-1)), (f (4404019) (-21))⟩, .com⟩ : DItv).isValid || (⟨⟨(f (3) (-1)), (f (4404019) (-21))⟩, .com⟩ : DItv).isNai then DItv.nai else Fmt.convertHullD binary64 (Fmt.roundAwayD binary64 (Fmt.convertHullD binary64 (⟨⟨(f (3) (-1)), (f (4404019) (-21))⟩, .com⟩ : DItv)))) (⟨⟨(f 2 0), (f 2 0)⟩, .dac⟩)),
    (7034, eqD (if !(⟨⟨(f (-3) (-1)), (f (5) (-1))⟩, .com⟩ : DItv).isValid || (⟨⟨(f (-3) (-1)), (f (5) (-1))⟩, .com⟩ : DItv).isNai then DItv.nai else Fmt.convertHullD binary32 (Fmt.roundAwayD binary64 (Fmt.convertHullD binary64 (⟨⟨(f (-3) (-1)), (f (5) (-1))⟩, .com⟩ : DItv)))) (⟨⟨(f (-2) (0)), (f 3 0)⟩, .defd⟩)),
    (7035, eqD (if !(⟨⟨(f (-3) (-1)), .pinf⟩, .dac⟩ : DItv).isValid || (⟨⟨(f (-3) (-1)), .pinf⟩, .dac⟩ : DItv).isNai then DItv.nai else Fmt.convertHullD binary32 (Fmt.roundAwayD binary64 (Fmt.convertHullD binary64 (⟨⟨(f (-3) (-1)), .pinf⟩, .dac⟩ : DItv)))) (⟨⟨(f (-2) (0)), .pinf⟩, .defd⟩)),
    (7040, DItv.isNai (if !(⟨⟨(f 1 0), (f (-9007199254740991) (971))⟩, .trv⟩ : DItv).isValid || (⟨⟨(f 1 0), (f (-9007199254740991) (971))⟩, .trv⟩ : DItv).isNai then DItv.nai else Fmt.convertHullD binary32 (Fmt.roundAwayD binary64 (Fmt.convertHullD binary64 (⟨⟨(f 1 0), (f (-9007199254740991) (971))⟩, .trv⟩ : DItv))) : DItv)),
    (7055, Itv.isEmpty (Fmt.absI (Itv.empty : Itv) : Itv)),
    (7056, eqB (Fmt.absI (Itv.entire : Itv)) (⟨(f 0 0), .pinf⟩)),
    (7057, eqB (Fmt.absI (⟨(f (2476979795053773) (-51)), (f (4728779608739021) (-51))⟩ : Itv)) (⟨(f (2476979795053773) (-51)), (f (4728779608739021) (-51))⟩)),
    (7058, eqB (Fmt.absI (⟨(f (-2476979795053773) (-51)), (f 2 0)⟩ : Itv)) (⟨(f 0 0), (f 2 0)⟩)),
    (7059, eqB (Fmt.absI (⟨(f (-2476979795053773) (-51)), (f 0 0)⟩ : Itv)) (⟨(f 0 0), (f (2476979795053773) (-51))⟩)),
    (7060, eqB (Fmt.absI (⟨(f (-2476979795053773) (-51)), .nzero⟩ : Itv)) (⟨(f 0 0), (f (2476979795053773) (-51))⟩)),
    (7061, eqB (Fmt.absI (⟨(f (-2476979795053773) (-51)), (f (-3602879701896397) (-53))⟩ : Itv)) (⟨(f (3602879701896397) (-53)), (f (2476979795053773) (-51))⟩)),
    (7062, eqB (Fmt.absI (⟨(f (-4278419646001971) (-51)), (f (3602879701896397) (-54))⟩ : Itv)) (⟨(f 0 0), (f (4278419646001971) (-51))⟩)),
    (7063, eqB (Fmt.absI (⟨(f 0 0), (f (3602879701896397) (-54))⟩ : Itv)) (⟨(f 0 0), (f (3602879701896397) (-54))⟩)),
    (7064, eqB (Fmt.absI (⟨.nzero, (f (3602879701896397) (-54))⟩ : Itv)) (⟨(f 0 0), (f (3602879701896397) (-54))⟩)),
    (7065, eqB (Fmt.absI (⟨(f (-3) (-1)), .pinf⟩ : Itv)) (⟨(f 0 0), .pinf⟩)),
    (7066, eqB (Fmt.absI (⟨.ninf, (f (-2476979795053773) (-50))⟩ : Itv)) (⟨(f (2476979795053773) (-50)), .pinf⟩)),
    (7069, Itv.isEmpty (Fmt.absI (⟨(f 1 0), (f (-9007199254740991) (971))⟩ : Itv) : Itv)),
    (7081, eqB (if !(⟨(f (-2476979795053773) (-51)), (f (-3602879701896397) (-53))⟩ : Itv).isValid then Itv.empty else Fmt.convertHull binary32 (Fmt.absI (Fmt.convertHull binary64 (⟨(f (-2476979795053773) (-51)), (f (-3602879701896397) (-53))⟩ : Itv)))) (⟨(f (3355443) (-23)), (f (9227469) (-23))⟩)),
    (7082, eqB (if !(⟨(f 0 0), (f (13421773) (-26))⟩ : Itv).isValid then Itv.empty else Fmt.convertHull binary64 (Fmt.absI (Fmt.convertHull binary64 (⟨(f 0 0), (f (13421773) (-26))⟩ : Itv)))) (⟨(f 0 0), (f (13421773) (-26))⟩)),
    (7083, eqB (if !(⟨.nzero, (f (3602879701896397) (-54))⟩ : Itv).isValid then Itv.empty else Fmt.convertHull binary32 (Fmt.absI (Fmt.convertHull binary64 (⟨.nzero, (f (3602879701896397) (-54))⟩ : Itv)))) (⟨(f 0 0), (f (13421773) (-26))⟩)),
    (7084, eqB (if !(⟨(f (-3) (-1)), .pinf⟩ : Itv).isValid then Itv.empty else Fmt.convertHull binary32 (Fmt.absI (Fmt.convertHull binary64 (⟨(f (-3) (-1)), .pinf⟩ : Itv)))) (⟨(f 0 0), .pinf⟩))] : List (ℕ × Bool)).all (·.2) = true := by
  decide +kernel

example : ([
    (7089, Itv.isEmpty (if !(⟨(f 1 0), (f (-9007199254740991) (971))⟩ : Itv).isValid then Itv.empty else Fmt.convertHull binary32 (Fmt.absI (Fmt.convertHull binary64 (⟨(f 1 0), (f (-9007199254740991) (971))⟩ : Itv))) : Itv)),
    (7101, eqD (Fmt.absD (⟨⟨(f (-2476979795053773) (-51)), (f 2 0)⟩, .com⟩ : DItv)) (⟨⟨(f 0 0), (f 2 0)⟩, .com⟩)),
    (7102, eqD (Fmt.absD (⟨⟨(f (-2476979795053773) (-51)), (f 0 0)⟩, .dac⟩ : DItv)) (⟨⟨(f 0 0), (f (2476979795053773) (-51))⟩, .dac⟩)),
    (7103, eqD (Fmt.absD (⟨⟨(f (-2476979795053773) (-51)), .nzero⟩, .defd⟩ : DItv)) (⟨⟨(f 0 0), (f (2476979795053773) (-51))⟩, .defd⟩)),
    (7104, eqD (Fmt.absD (⟨⟨(f (-2476979795053773) (-51)), (f (-3602879701896397) (-53))⟩, .trv⟩ : DItv)) (⟨⟨(f (3602879701896397) (-53)), (f (2476979795053773) (-51))⟩, .trv⟩)),
    (7105, eqD (Fmt.absD (⟨⟨(f (-4278419646001971) (-51)), (f (3602879701896397) (-54))⟩, .dac⟩ : DItv)) (⟨⟨(f 0 0), (f (4278419646001971) (-51))⟩, .dac⟩)),
    (7106, eqD (Fmt.absD (⟨⟨(f 0 0), (f (3602879701896397) (-54))⟩, .defd⟩ : DItv)) (⟨⟨(f 0 0), (f (3602879701896397) (-54))⟩, .defd⟩)),
    (7107, eqD (Fmt.absD (⟨⟨.nzero, (f (3602879701896397) (-54))⟩, .com⟩ : DItv)) (⟨⟨(f 0 0), (f (3602879701896397) (-54))⟩, .com⟩)),
    (7108, eqD (Fmt.absD (⟨⟨(f (-3) (-1)), .pinf⟩, .dac⟩ : DItv)) (⟨⟨(f 0 0), .pinf⟩, .dac⟩)),
    (7113, DItv.isNai (Fmt.absD (⟨⟨(f 1 0), (f (-9007199254740991) (971))⟩, .trv⟩ : DItv) : DItv)),
    (7125, eqD (if !(⟨⟨(f (-2476979795053773) (-51)), (f (-3602879701896397) (-53))⟩, .com⟩ : DItv).isValid || (⟨⟨(f (-2476979795053773) (-51)), (f (-3602879701896397) (-53))⟩, .com⟩ : DItv).isNai then DItv.nai else Fmt.convertHullD binary32 (Fmt.absD (Fmt.convertHullD binary64 (⟨⟨(f (-2476979795053773) (-51)), (f (-3602879701896397) (-53))⟩, .com⟩ : DItv)))) (⟨⟨(f (3355443) (-23)), (f (9227469) (-23))⟩, .com⟩)),
    (7126, eqD (if !(⟨⟨(f 0 0), (f (13421773) (-26))⟩, .defd⟩ : DItv).isValid || (⟨⟨(f 0 0), (f (13421773) (-26))⟩, .defd⟩ : DItv).isNai then DItv.nai else Fmt.convertHullD binary64 (Fmt.absD (Fmt.convertHullD binary64 (⟨⟨(f 0 0), (f (13421773) (-26))⟩, .defd⟩ : DItv)))) (⟨⟨(f 0 0), (f (13421773) (-26))⟩, .defd⟩)),
    (7127, eqD (if !(⟨⟨.nzero, (f (3602879701896397) (-54))⟩, .dac⟩ : DItv).isValid || (⟨⟨.nzero, (f (3602879701896397) (-54))⟩, .dac⟩ : DItv).isNai then DItv.nai else Fmt.convertHullD binary32 (Fmt.absD (Fmt.convertHullD binary64 (⟨⟨.nzero, (f (3602879701896397) (-54))⟩, .dac⟩ : DItv)))) (⟨⟨(f 0 0), (f (13421773) (-26))⟩, .dac⟩)),
    (7128, eqD (if !(⟨⟨(f (-3) (-1)), .pinf⟩, .trv⟩ : DItv).isValid || (⟨⟨(f (-3) (-1)), .pinf⟩, .trv⟩ : DItv).isNai then DItv.nai else Fmt.convertHullD binary32 (Fmt.absD (Fmt.convertHullD binary64 (⟨⟨(f (-3) (-1)), .pinf⟩, .trv⟩ : DItv)))) (⟨⟨(f 0 0), .pinf⟩, .trv⟩)),
    (7133, DItv.isNai (if !(⟨⟨(f 1 0), (f (-9007199254740991) (971))⟩, .trv⟩ : DItv).isValid || (⟨⟨(f 1 0), (f (-9007199254740991) (971))⟩, .trv⟩ : DItv).isNai then DItv.nai else Fmt.convertHullD binary32 (Fmt.absD (Fmt.convertHullD binary64 (⟨⟨(f 1 0), (f (-9007199254740991) (971))⟩, .trv⟩ : DItv))) : DItv)),
    (7149, Itv.isEmpty (Fmt.minI (Itv.empty : Itv) (⟨(f 1 0), (f 2 0)⟩ : Itv) : Itv)),
    (7150, Itv.isEmpty (Fmt.minI (⟨(f 1 0), (f 2 0)⟩ : Itv) (Itv.empty : Itv) : Itv)),
    (7151, Itv.isEmpty (Fmt.minI (Itv.empty : Itv) (Itv.empty : Itv) : Itv)),
    (7152, eqB (Fmt.minI (Itv.entire : Itv) (⟨(f 1 0), (f 2 0)⟩ : Itv)) (⟨.ninf, (f 2 0)⟩)),
    (7153, eqB (Fmt.minI (⟨(f 1 0), (f 2 0)⟩ : Itv) (Itv.entire : Itv)) (⟨.ninf, (f 2 0)⟩)),
    (7154, eqB (Fmt.minI (Itv.entire : Itv) (Itv.entire : Itv)) (Itv.entire)),
    (7155, Itv.isEmpty (Fmt.minI (Itv.empty : Itv) (Itv.entire : Itv) : Itv)),
    (7156, eqB (Fmt.minI (⟨(f 1 0), (f 5 0)⟩ : Itv) (⟨(f 2 0), (f 4 0)⟩ : Itv)) (⟨(f 1 0), (f 4 0)⟩)),
    (7157, eqB (Fmt.minI (⟨(f 0 0), (f 5 0)⟩ : Itv) (⟨(f 2 0), (f 4 0)⟩ : Itv)) (⟨(f 0 0), (f 4 0)⟩)),
    (7158, eqB (Fmt.minI (⟨.nzero, (f 5 0)⟩ : Itv) (⟨(f 2 0), (f 4 0)⟩ : Itv)) (⟨(f 0 0), (f 4 0)⟩)),
    (7159, eqB (Fmt.minI (⟨(f 1 0), (f 5 0)⟩ : Itv) (⟨(f 2 0), (f 8 0)⟩ : Itv)) (⟨(f 1 0), (f 5 0)⟩)),
    (7160, eqB (Fmt.minI (⟨(f 1 0), (f 5 0)⟩ : Itv) (Itv.entire : Itv)) (⟨.ninf, (f 5 0)⟩)),
    (7161, eqB (Fmt.minI (⟨(f (-7) (0)), (f (-5) (0))⟩ : Itv) (⟨(f 2 0), (f 4 0)⟩ : Itv)) (⟨(f (-7) (0)), (f (-5) (0))⟩)),
    (7162, eqB (Fmt.minI (⟨(f (-7) (0)), (f 0 0)⟩ : Itv) (⟨(f 2 0), (f 4 0)⟩ : Itv)) (⟨(f (-7) (0)), (f 0 0)⟩)),
    (7163, eqB (Fmt.minI (⟨(f (-7) (0)), .nzero⟩ : Itv) (⟨(f 2 0), (f 4 0)⟩ : Itv)) (⟨(f (-7) (0)), (f 0 0)⟩)),
    (7166, Itv.isEmpty (Fmt.minI (⟨(f 1 0), (f (-9007199254740991) (971))⟩ : Itv) (⟨(f 1 0), (f 2 0)⟩ : Itv) : Itv)),
    (7179, eqB (if !(Itv.entire : Itv).isValid || !(⟨(f 1 0), (f 2 0)⟩ : Itv).isValid then Itv.empty else Fmt.convertHull binary64 (Fmt.minI (Fmt.convertHull binary64 (Itv.entire : Itv)) (Fmt.convertHull binary64 (⟨(f 1 0), (f 2 0)⟩ : Itv)))) (⟨.ninf, (f 2 0)⟩)),
    (7180, eqB (if !(⟨(f (3602879701896397) (-55)), (f 5 0)⟩ : Itv).isValid || !(⟨(f 2 0), (f (2308094809027379) (-49))⟩ : Itv).isValid then Itv.empty else Fmt.convertHull binary32 (Fmt.minI (Fmt.convertHull binary64 (⟨(f (3602879701896397) (-55)), (f 5 0)⟩ : Itv)) (Fmt.convertHull binary64 (⟨(f 2 0), (f (2308094809027379) (-49))⟩ : Itv)))) (⟨(f (3355443) (-25)), (f (2149581) (-19))⟩)),
    (7185, Itv.isEmpty (if !(⟨(f 1 0), (f (-9007199254740991) (971))⟩ : Itv).isValid || !(⟨(f 1 0), (f 2 0)⟩ : Itv).isValid then Itv.empty else Fmt.convertHull binary32 (Fmt.minI (Fmt.convertHull binary64 (⟨(f 1 0), (f (-9007199254740991) (971))⟩ : Itv)) (Fmt.convertHull binary64 (⟨(f 1 0), (f 2 0)⟩ : Itv))) : Itv)),
    (7197, eqD (Fmt.minD (DItv.entire : DItv) (⟨⟨(f 1 0), (f 2 0)⟩, .com⟩ : DItv)) (⟨⟨.ninf, (f 2 0)⟩, .dac⟩)),
    (7198, eqD (Fmt.minD (⟨⟨(f (-7) (0)), (f (-5) (0))⟩, .trv⟩ : DItv) (⟨⟨(f 2 0), (f 4 0)⟩, .defd⟩ : DItv)) (⟨⟨(f (-7) (0)), (f (-5) (0))⟩, .trv⟩)),
    (7199, eqD (Fmt.minD (⟨⟨(f (-7) (0)), (f 0 0)⟩, .dac⟩ : DItv) (⟨⟨(f 2 0), (f 4 0)⟩, .defd⟩ : DItv)) (⟨⟨(f (-7) (0)), (f 0 0)⟩, .defd⟩)),
    (7200, eqD (Fmt.minD (⟨⟨(f (-7) (0)), .nzero⟩, .com⟩ : DItv) (⟨⟨(f 2 0), (f 4 0)⟩, .com⟩ : DItv)) (⟨⟨(f (-7) (0)), (f 0 0)⟩, .com⟩)),
    (7205, DItv.isNai (Fmt.minD (⟨⟨(f 1 0), (f (-9007199254740991) (971))⟩, .trv⟩ : DItv) (⟨⟨(f 1 0), (f 2 0)⟩, .trv⟩ : DItv) : DItv)),
    (7217, eqD (if !(DItv.entire : DItv).isValid || (DItv.entire : DItv).isNai || !(⟨⟨(f 1 0), (f 2 0)⟩, .com⟩ : DItv).isValid || (⟨⟨(f 1 0), (f 2 0)⟩, .com⟩ : DItv).isNai then DItv.nai else Fmt.convertHullD binary64 (Fmt.minD (Fmt.convertHullD binary64 (DItv.entire : DItv)) (Fmt.convertHullD binary64 (⟨⟨(f 1 0), (f 2 0)⟩, .com⟩ : DItv)))) (⟨⟨.ninf, (f 2 0)⟩, .dac⟩)),
    (7218, eqD (if !(⟨⟨(f (3602879701896397) (-55)), (f 5 0)⟩, .com⟩ : DItv).isValid || (⟨⟨(f (3602879701896397) (-55)), (f 5 0)⟩, .com⟩ : DItv).isNai || !(⟨⟨(f 2 0), (f (2308094809027379) (-49))⟩, .com⟩ : DItv).isValid || (⟨⟨(f 2 0), (f (2308094809027379) (-49))⟩, .com⟩ : DItv).isNai then DItv.nai else Fmt.convertHullD binary32 (Fmt.minD (Fmt.convertHullD binary64 (⟨⟨(f (3602879701896397) (-55)), (f 5 0)⟩, .com⟩ : DItv)) (Fmt.convertHullD binary64 (⟨⟨(f 2 0), (f (2308094809027379) (-49))⟩, .com⟩ : DItv)))) (⟨⟨(f (3355443) (-25)), (f (2149581) (-19))⟩, .com⟩)),
    (7223, DItv.isNai (if !(⟨⟨(f 1 0), (f (-9007199254740991) (971))⟩, .trv⟩ : DItv).isValid || (⟨⟨(f 1 0), (f (-9007199254740991) (971))⟩, .trv⟩ : DItv).isNai || !(⟨⟨(f 1 0), (f 2 0)⟩, .trv⟩ : DItv).isValid || (⟨⟨(f 1 0), (f 2 0)⟩, .trv⟩ : DItv).isNai then DItv.nai else Fmt.convertHullD binary32 (Fmt.minD (Fmt.convertHullD binary64 (⟨⟨(f 1 0), (f (-9007199254740991) (971))⟩, .trv⟩ : DItv)) (Fmt.convertHullD binary64 (⟨⟨(f 1 0), (f 2 0)⟩, .trv⟩ : DItv))) : DItv)),
    (7239, Itv.isEmpty (Fmt.maxI (Itv.empty : Itv) (⟨(f 1 0), (f 2 0)⟩ : Itv) : Itv)),
    (7240, Itv.isEmpty (Fmt.maxI (⟨(f 1 0), (f 2 0)⟩ : Itv) (Itv.empty : Itv) : Itv)),
    (7241, Itv.isEmpty (Fmt.maxI (Itv.empty : Itv) (Itv.empty : Itv) : Itv)),
    (7242, eqB (Fmt.maxI (Itv.entire : Itv) (⟨(f 1 0), (f 2 0)⟩ : Itv)) (⟨(f 1 0), .pinf⟩)),
    (7243, eqB (Fmt.maxI (⟨(f 1 0), (f 2 0)⟩ : Itv) (Itv.entire : Itv)) (⟨(f 1 0), .pinf⟩)),
    (7244, eqB (Fmt.maxI (Itv.entire : Itv) (Itv.entire : Itv)) (Itv.entire)),
    (7245, Itv.isEmpty (Fmt.maxI (Itv.empty : Itv) (Itv.entire : Itv) : Itv)),
    (7246, eqB (Fmt.maxI (⟨(f 1 0), (f 5 0)⟩ : Itv) (⟨(f 2 0), (f 4 0)⟩ : Itv)) (⟨(f 2 0), (f 5 0)⟩))] : List (ℕ × Bool)).all (·.2) = true := by
  decide +kernel

example : ([
    (7247, eqB (Fmt.maxI (⟨(f 1 0), (f 5 0)⟩ : Itv) (⟨(f 2 0), (f 8 0)⟩ : Itv)) (⟨(f 2 0), (f 8 0)⟩)),
    (7248, eqB (Fmt.maxI (⟨(f (-1) (0)), (f 5 0)⟩ : Itv) (Itv.entire : Itv)) (⟨(f (-1) (0)), .pinf⟩)),
    (7249, eqB (Fmt.maxI (⟨(f (-7) (0)), (f (-5) (0))⟩ : Itv) (⟨(f 2 0), (f 4 0)⟩ : Itv)) (⟨(f 2 0), (f 4 0)⟩)),
    (7250, eqB (Fmt.maxI (⟨(f (-7) (0)), (f (-5) (0))⟩ : Itv) (⟨(f 0 0), (f 4 0)⟩ : Itv)) (⟨(f 0 0), (f 4 0)⟩)),
    (7251, eqB (Fmt.maxI (⟨(f (-7) (0)), (f (-5) (0))⟩ : Itv) (⟨.nzero, (f 4 0)⟩ : Itv)) (⟨(f 0 0), (f 4 0)⟩)),
    (7252, eqB (Fmt.maxI (⟨(f (-7) (0)), (f (-5) (0))⟩ : Itv) (⟨(f (-2) (0)), (f 0 0)⟩ : Itv)) (⟨(f (-2) (0)), (f 0 0)⟩)),
    (7253, eqB (Fmt.maxI (⟨(f (-7) (0)), (f (-5) (0))⟩ : Itv) (⟨(f (-2) (0)), .nzero⟩ : Itv)) (⟨(f (-2) (0)), (f 0 0)⟩)),
    (7256, Itv.isEmpty (Fmt.maxI (⟨(f 1 0), (f (-9007199254740991) (971))⟩ : Itv) (⟨(f 1 0), (f 2 0)⟩ : Itv) : Itv)),
    (7268, eqB (if !(Itv.entire : Itv).isValid || !(⟨(f 1 0), (f 2 0)⟩ : Itv).isValid then Itv.empty else Fmt.convertHull binary64 (Fmt.maxI (Fmt.convertHull binary64 (Itv.entire : Itv)) (Fmt.convertHull binary64 (⟨(f 1 0), (f 2 0)⟩ : Itv)))) (⟨(f 1 0), .pinf⟩)),
    (7269, eqB (if !(⟨(f (3602879701896397) (-55)), (f 3 0)⟩ : Itv).isValid || !(⟨(f (-2) (0)), (f (2308094809027379) (-49))⟩ : Itv).isValid then Itv.empty else Fmt.convertHull binary32 (Fmt.maxI (Fmt.convertHull binary64 (⟨(f (3602879701896397) (-55)), (f 3 0)⟩ : Itv)) (Fmt.convertHull binary64 (⟨(f (-2) (0)), (f (2308094809027379) (-49))⟩ : Itv)))) (⟨(f (3355443) (-25)), (f (2149581) (-19))⟩)),
    (7274, Itv.isEmpty (if !(⟨(f 1 0), (f (-9007199254740991) (971))⟩ : Itv).isValid || !(⟨(f 1 0), (f 2 0)⟩ : Itv).isValid then Itv.empty else Fmt.convertHull binary32 (Fmt.maxI (Fmt.convertHull binary64 (⟨(f 1 0), (f (-9007199254740991) (971))⟩ : Itv)) (Fmt.convertHull binary64 (⟨(f 1 0), (f 2 0)⟩ : Itv))) : Itv)),
    (7286, eqD (Fmt.maxD (DItv.entire : DItv) (⟨⟨(f 1 0), (f 2 0)⟩, .com⟩ : DItv)) (⟨⟨(f 1 0), .pinf⟩, .dac⟩)),
    (7287, eqD (Fmt.maxD (⟨⟨(f (-7) (0)), (f (-5) (0))⟩, .trv⟩ : DItv) (⟨⟨(f 2 0), (f 4 0)⟩, .defd⟩ : DItv)) (⟨⟨(f 2 0), (f 4 0)⟩, .trv⟩)),
    (7288, eqD (Fmt.maxD (⟨⟨(f (-7) (0)), (f 5 0)⟩, .dac⟩ : DItv) (⟨⟨(f 2 0), (f 4 0)⟩, .defd⟩ : DItv)) (⟨⟨(f 2 0), (f 5 0)⟩, .defd⟩)),
    (7289, eqD (Fmt.maxD (⟨⟨(f 3 0), (f (7) (-1))⟩, .com⟩ : DItv) (⟨⟨(f 2 0), (f 4 0)⟩, .com⟩ : DItv)) (⟨⟨(f 3 0), (f 4 0)⟩, .com⟩)),
    (7294, DItv.isNai (Fmt.maxD (⟨⟨(f 1 0), (f (-9007199254740991) (971))⟩, .trv⟩ : DItv) (⟨⟨(f 1 0), (f 2 0)⟩, .trv⟩ : DItv) : DItv)),
    (7306, eqD (if !(DItv.entire : DItv).isValid || (DItv.entire : DItv).isNai || !(⟨⟨(f 1 0), (f 2 0)⟩, .com⟩ : DItv).isValid || (⟨⟨(f 1 0), (f 2 0)⟩, .com⟩ : DItv).isNai then DItv.nai else Fmt.convertHullD binary64 (Fmt.maxD (Fmt.convertHullD binary64 (DItv.entire : DItv)) (Fmt.convertHullD binary64 (⟨⟨(f 1 0), (f 2 0)⟩, .com⟩ : DItv)))) (⟨⟨(f 1 0), .pinf⟩, .dac⟩)),
    (7307, eqD (if !(⟨⟨(f (3602879701896397) (-55)), (f 3 0)⟩, .com⟩ : DItv).isValid || (⟨⟨(f (3602879701896397) (-55)), (f 3 0)⟩, .com⟩ : DItv).isNai || !(⟨⟨(f (-2) (0)), (f (2308094809027379) (-49))⟩, .com⟩ : DItv).isValid || (⟨⟨(f (-2) (0)), (f (2308094809027379) (-49))⟩, .com⟩ : DItv).isNai then DItv.nai else Fmt.convertHullD binary32 (Fmt.maxD (Fmt.convertHullD binary64 (⟨⟨(f (3602879701896397) (-55)), (f 3 0)⟩, .com⟩ : DItv)) (Fmt.convertHullD binary64 (⟨⟨(f (-2) (0)), (f (2308094809027379) (-49))⟩, .com⟩ : DItv)))) (⟨⟨(f (3355443) (-25)), (f (2149581) (-19))⟩, .com⟩)),
    (7312, DItv.isNai (if !(⟨⟨(f 1 0), (f (-9007199254740991) (971))⟩, .trv⟩ : DItv).isValid || (⟨⟨(f 1 0), (f (-9007199254740991) (971))⟩, .trv⟩ : DItv).isNai || !(⟨⟨(f 1 0), (f 2 0)⟩, .trv⟩ : DItv).isValid || (⟨⟨(f 1 0), (f 2 0)⟩, .trv⟩ : DItv).isNai then DItv.nai else Fmt.convertHullD binary32 (Fmt.maxD (Fmt.convertHullD binary64 (⟨⟨(f 1 0), (f (-9007199254740991) (971))⟩, .trv⟩ : DItv)) (Fmt.convertHullD binary64 (⟨⟨(f 1 0), (f 2 0)⟩, .trv⟩ : DItv))) : DItv))] : List (ℕ × Bool)).all (·.2) = true := by
  decide +kernel

end P1788.Conform
