__pycache__
