import Verif.Conform.Basic

/-!
# Conformance: bool_func

Generated from `/repo/test/p1788/flavor/infsup/setbased/test_mpfr_bin_ieee754_flavor_bool_func.cpp`: the assertions of the project's own test suite, evaluated in the
model by the kernel.  Each entry is (line in that file, value of the assertion).  These are tests of the model, not proofs of
properties.
-/

set_option maxRecDepth 100000

namespace P1788.Conform

example : ([
    (1830, !Itv.disjoint (⟨(f 3 0), (f (-4) (0))⟩ : Itv) (⟨.ninf, .pinf⟩ : Itv)),
    (1844, Itv.disjoint (⟨.nan, .nan⟩ : Itv) (⟨(f 3 0), (f 4 0)⟩ : Itv)),
    (1845, Itv.disjoint (⟨(f 3 0), (f 4 0)⟩ : Itv) (⟨.nan, .nan⟩ : Itv)),
    (1846, Itv.disjoint (⟨.nan, .nan⟩ : Itv) (⟨.nan, .nan⟩ : Itv)),
    (1848, Itv.disjoint (⟨(f 3 0), (f 4 0)⟩ : Itv) (⟨(f 1 0), (f 2 0)⟩ : Itv)),
    (1850, !Itv.disjoint (⟨(f 0 0), (f 0 0)⟩ : Itv) (⟨.nzero, .nzero⟩ : Itv)),
    (1851, !Itv.disjoint (⟨(f 0 0), .nzero⟩ : Itv) (⟨.nzero, (f 0 0)⟩ : Itv)),
    (1852, !Itv.disjoint (⟨(f 3 0), (f 4 0)⟩ : Itv) (⟨(f 1 0), (f 7 0)⟩ : Itv)),
    (1853, !Itv.disjoint (⟨(f 3 0), (f 4 0)⟩ : Itv) (⟨.ninf, .pinf⟩ : Itv)),
    (1854, !Itv.disjoint (⟨.ninf, .pinf⟩ : Itv) (⟨(f 1 0), (f 7 0)⟩ : Itv)),
    (1855, !Itv.disjoint (⟨.ninf, .pinf⟩ : Itv) (⟨.ninf, .pinf⟩ : Itv)),
    (1857, Itv.disjoint (⟨.nan, .nan⟩ : Itv) (⟨(f 3 0), (f 4 0)⟩ : Itv)),
    (1858, Itv.disjoint (⟨(f 3 0), (f 4 0)⟩ : Itv) (⟨.nan, .nan⟩ : Itv)),
    (1859, Itv.disjoint (⟨.nan, .nan⟩ : Itv) (⟨.nan, .nan⟩ : Itv)),
    (1861, Itv.disjoint (⟨(f 3 0), (f 4 0)⟩ : Itv) (⟨(f 1 0), (f 2 0)⟩ : Itv)),
    (1863, !Itv.disjoint (⟨(f 0 0), (f 0 0)⟩ : Itv) (⟨.nzero, .nzero⟩ : Itv)),
    (1864, !Itv.disjoint (⟨(f 0 0), .nzero⟩ : Itv) (⟨.nzero, (f 0 0)⟩ : Itv)),
    (1865, !Itv.disjoint (⟨(f 3 0), (f 4 0)⟩ : Itv) (⟨(f 1 0), (f 7 0)⟩ : Itv)),
    (1866, !Itv.disjoint (⟨(f 3 0), (f 4 0)⟩ : Itv) (⟨.ninf, .pinf⟩ : Itv)),
    (1867, !Itv.disjoint (⟨.ninf, .pinf⟩ : Itv) (⟨(f 1 0), (f 7 0)⟩ : Itv)),
    (1868, !Itv.disjoint (⟨.ninf, .pinf⟩ : Itv) (⟨.ninf, .pinf⟩ : Itv)),
    (1873, !Itv.disjoint (⟨(f 3 0), (f 4 0)⟩ : Itv) (⟨.ninf, .ninf⟩ : Itv)),
    (1888, !DItv.rel Itv.disjoint (⟨⟨.nan, .nan⟩, .ill⟩ : DItv) (⟨⟨(f 3 0), (f 4 0)⟩, .defd⟩ : DItv)),
    (1889, !DItv.rel Itv.disjoint (⟨⟨(f 3 0), (f 4 0)⟩, .trv⟩ : DItv) (⟨⟨.nan, .nan⟩, .ill⟩ : DItv)),
    (1890, !DItv.rel Itv.disjoint (⟨⟨.nan, .nan⟩, .trv⟩ : DItv) (⟨⟨.nan, .nan⟩, .ill⟩ : DItv)),
    (1891, !DItv.rel Itv.disjoint (⟨⟨.nan, .nan⟩, .ill⟩ : DItv) (⟨⟨.nan, .nan⟩, .ill⟩ : DItv)),
    (1893, DItv.rel Itv.disjoint (⟨⟨.nan, .nan⟩, .trv⟩ : DItv) (⟨⟨(f 3 0), (f 4 0)⟩, .trv⟩ : DItv)),
    (1894, DItv.rel Itv.disjoint (⟨⟨(f 3 0), (f 4 0)⟩, .trv⟩ : DItv) (⟨⟨.nan, .nan⟩, .trv⟩ : DItv)),
    (1895, DItv.rel Itv.disjoint (⟨⟨.nan, .nan⟩, .trv⟩ : DItv) (⟨⟨.nan, .nan⟩, .trv⟩ : DItv)),
    (1897, DItv.rel Itv.disjoint (⟨⟨(f 3 0), (f 4 0)⟩, .trv⟩ : DItv) (⟨⟨(f 1 0), (f 2 0)⟩, .defd⟩ : DItv)),
    (1899, !DItv.rel Itv.disjoint (⟨⟨(f 0 0), (f 0 0)⟩, .trv⟩ : DItv) (⟨⟨.nzero, .nzero⟩, .trv⟩ : DItv)),
    (1900, !DItv.rel Itv.disjoint (⟨⟨(f 0 0), .nzero⟩, .trv⟩ : DItv) (⟨⟨.nzero, (f 0 0)⟩, .trv⟩ : DItv)),
    (1901, !DItv.rel Itv.disjoint (⟨⟨(f 3 0), (f 4 0)⟩, .defd⟩ : DItv) (⟨⟨(f 1 0), (f 7 0)⟩, .defd⟩ : DItv)),
    (1902, !DItv.rel Itv.disjoint (⟨⟨(f 3 0), (f 4 0)⟩, .trv⟩ : DItv) (⟨⟨.ninf, .pinf⟩, .trv⟩ : DItv)),
    (1903, !DItv.rel Itv.disjoint (⟨⟨.ninf, .pinf⟩, .trv⟩ : DItv) (⟨⟨(f 1 0), (f 7 0)⟩, .trv⟩ : DItv)),
    (1904, !DItv.rel Itv.disjoint (⟨⟨.ninf, .pinf⟩, .trv⟩ : DItv) (⟨⟨.ninf, .pinf⟩, .trv⟩ : DItv)),
    (1909, !DItv.rel Itv.disjoint (⟨⟨(f 3 0), (f 4 0)⟩, .trv⟩ : DItv) (⟨⟨.ninf, .pinf⟩, .com⟩ : DItv)),
    (1923, !DItv.rel Itv.disjoint (⟨⟨.nan, .nan⟩, .ill⟩ : DItv) (⟨⟨(f 3 0), (f 4 0)⟩, .trv⟩ : DItv)),
    (1924, !DItv.rel Itv.disjoint (⟨⟨(f 3 0), (f 4 0)⟩, .trv⟩ : DItv) (⟨⟨.nan, .nan⟩, .ill⟩ : DItv)),
    (1925, !DItv.rel Itv.disjoint (⟨⟨.nan, .nan⟩, .trv⟩ : DItv) (⟨⟨.nan, .nan⟩, .ill⟩ : DItv)),
    (1926, !DItv.rel Itv.disjoint (⟨⟨.nan, .nan⟩, .ill⟩ : DItv) (⟨⟨.nan, .nan⟩, .ill⟩ : DItv)),
    (1928, DItv.rel Itv.disjoint (⟨⟨.nan, .nan⟩, .trv⟩ : DItv) (⟨⟨(f 3 0), (f 4 0)⟩, .defd⟩ : DItv)),
    (1929, DItv.rel Itv.disjoint (⟨⟨(f 3 0), (f 4 0)⟩, .trv⟩ : DItv) (⟨⟨.nan, .nan⟩, .trv⟩ : DItv)),
    (1930, DItv.rel Itv.disjoint (⟨⟨.nan, .nan⟩, .trv⟩ : DItv) (⟨⟨.nan, .nan⟩, .trv⟩ : DItv)),
    (1932, DItv.rel Itv.disjoint (⟨⟨(f 3 0), (f 4 0)⟩, .trv⟩ : DItv) (⟨⟨(f 1 0), (f 2 0)⟩, .trv⟩ : DItv)),
    (1934, !DItv.rel Itv.disjoint (⟨⟨(f 0 0), (f 0 0)⟩, .trv⟩ : DItv) (⟨⟨.nzero, .nzero⟩, .trv⟩ : DItv)),
    (1935, !DItv.rel Itv.disjoint (⟨⟨(f 0 0), .nzero⟩, .defd⟩ : DItv) (⟨⟨.nzero, (f 0 0)⟩, .defd⟩ : DItv)),
    (1936, !DItv.rel Itv.disjoint (⟨⟨(f 3 0), (f 4 0)⟩, .trv⟩ : DItv) (⟨⟨(f 1 0), (f 7 0)⟩, .trv⟩ : DItv)),
    (1937, !DItv.rel Itv.disjoint (⟨⟨(f 3 0), (f 4 0)⟩, .trv⟩ : DItv) (⟨⟨.ninf, .pinf⟩, .defd⟩ : DItv)),
    (1938, !DItv.rel Itv.disjoint (⟨⟨.ninf, .pinf⟩, .trv⟩ : DItv) (⟨⟨(f 1 0), (f 7 0)⟩, .trv⟩ : DItv))] : List (ℕ × Bool)).all (·.2) = true := by
  decide +kernel

example : ([
    (1939, !DItv.rel Itv.disjoint (⟨⟨.ninf, .pinf⟩, .trv⟩ : DItv) (⟨⟨.ninf, .pinf⟩, .trv⟩ : DItv)),
    (1941, !DItv.rel Itv.disjoint (⟨⟨.nan, .nan⟩, .ill⟩ : DItv) (⟨⟨(f 3 0), (f 4 0)⟩, .trv⟩ : DItv)),
    (1942, !DItv.rel Itv.disjoint (⟨⟨(f 3 0), (f 4 0)⟩, .trv⟩ : DItv) (⟨⟨.nan, .nan⟩, .ill⟩ : DItv)),
    (1943, !DItv.rel Itv.disjoint (⟨⟨.nan, .nan⟩, .trv⟩ : DItv) (⟨⟨.nan, .nan⟩, .ill⟩ : DItv)),
    (1944, !DItv.rel Itv.disjoint (⟨⟨.nan, .nan⟩, .ill⟩ : DItv) (⟨⟨.nan, .nan⟩, .ill⟩ : DItv)),
    (1946, DItv.rel Itv.disjoint (⟨⟨.nan, .nan⟩, .trv⟩ : DItv) (⟨⟨(f 3 0), (f 4 0)⟩, .trv⟩ : DItv)),
    (1947, DItv.rel Itv.disjoint (⟨⟨(f 3 0), (f 4 0)⟩, .trv⟩ : DItv) (⟨⟨.nan, .nan⟩, .trv⟩ : DItv)),
    (1948, DItv.rel Itv.disjoint (⟨⟨.nan, .nan⟩, .trv⟩ : DItv) (⟨⟨.nan, .nan⟩, .trv⟩ : DItv)),
    (1950, DItv.rel Itv.disjoint (⟨⟨(f 3 0), (f 4 0)⟩, .trv⟩ : DItv) (⟨⟨(f 1 0), (f 2 0)⟩, .trv⟩ : DItv)),
    (1952, !DItv.rel Itv.disjoint (⟨⟨(f 0 0), (f 0 0)⟩, .defd⟩ : DItv) (⟨⟨.nzero, .nzero⟩, .trv⟩ : DItv)),
    (1953, !DItv.rel Itv.disjoint (⟨⟨(f 0 0), .nzero⟩, .trv⟩ : DItv) (⟨⟨.nzero, (f 0 0)⟩, .trv⟩ : DItv)),
    (1954, !DItv.rel Itv.disjoint (⟨⟨(f 3 0), (f 4 0)⟩, .trv⟩ : DItv) (⟨⟨(f 1 0), (f 7 0)⟩, .defd⟩ : DItv)),
    (1955, !DItv.rel Itv.disjoint (⟨⟨(f 3 0), (f 4 0)⟩, .trv⟩ : DItv) (⟨⟨.ninf, .pinf⟩, .trv⟩ : DItv)),
    (1956, !DItv.rel Itv.disjoint (⟨⟨.ninf, .pinf⟩, .trv⟩ : DItv) (⟨⟨(f 1 0), (f 7 0)⟩, .trv⟩ : DItv)),
    (1957, !DItv.rel Itv.disjoint (⟨⟨.ninf, .pinf⟩, .trv⟩ : DItv) (⟨⟨.ninf, .pinf⟩, .trv⟩ : DItv)),
    (1962, !DItv.rel Itv.disjoint (⟨⟨.nan, .nan⟩, .dac⟩ : DItv) (⟨⟨.nan, .nan⟩, .ill⟩ : DItv))] : List (ℕ × Bool)).all (·.2) = true := by
  decide +kernel

end P1788.Conform
