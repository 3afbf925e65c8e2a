{"C34": {"status": "partial", "note": "Proved for every interior column whose indices are at least two, with or without a body. The code violates the claim for interior columns with an index equal to one (C34_lost): the lower side of the new relaxation area is clamped to two."}}
