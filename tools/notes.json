{"_partial": []}
