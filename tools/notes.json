{
 "C01": {"note": "u64 arguments; HashMap and BTreeMap modelled as lookup function and sorted list."},
 "C02": {"note": ""}
}
